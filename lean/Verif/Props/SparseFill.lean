import Verif.Model.SparseFill
import Verif.Props.Universal
import Verif.Lemmas.DenseFill
import Verif.Props.Blas

/-!
# C123: sparse matrices constructed with a filler; C44: dense matrices resized with a filler
-/

namespace BB

variable {R : Type}

namespace Sparse

/-- The state after the filler on a matrix whose keys fit. -/
theorem fillContinuous_sat [One R] [Add R] (S : Sparse R) (K : Nat) (ho : S.offset.length = K + 1) (hk : K * S.dim.rows ≤ S.key.length) :
    Sat S.fillContinuous (fun T => T.ori = S.ori ∧ T.dim = S.dim ∧ T.value.length = S.value.length ∧ T.key.length = S.key.length ∧
      T.offset.length = K + 1 ∧ (∀ p, p < S.value.length → T.value[p]? = some (some (countUp p))) ∧
      (∀ q k, q < K → k < S.dim.rows → T.key[q * S.dim.rows + k]? = some (some k)) ∧
      (∀ p, K * S.dim.rows ≤ p → T.key[p]? = S.key[p]?) ∧
      ∀ q, q ≤ K → T.offset[q]? = some (some (q * S.dim.rows))) := by
  generalize hr : S.dim.rows = r at *
  unfold fillContinuous
  refine Sat.bind (Sat.raw (fun k (s : R × Buf R) => s.1 = countUp k ∧ s.2.length = S.value.length ∧
    ∀ t, t < k → s.2[t]? = some (some (countUp t))) ⟨rfl, rfl, by intro t h; omega⟩ ?_) ?_
  · rintro i ⟨q, d⟩ hi ⟨h1, hl', hx⟩
    simp only at h1 hl' hx
    subst h1
    refine Sat.writeRaw (by simp only; omega) ?_
    intro b' hb hx'
    simp only at hb
    refine Sat.pure ⟨rfl, by simp only; omega, ?_⟩
    intro t ht
    rw [hx']
    by_cases h : t = i
    · simp [h]
    · simp only [h, if_false]; exact hx t (by omega)
  · rintro ⟨x, v⟩ ⟨-, hv, hx⟩
    dsimp only at hv hx ⊢
    rw [if_neg (by omega)]
    have hK : S.offset.length - 1 = K := by omega
    rw [hK]
    refine Sat.bind (Sat.raw (fun q (s : Nat × Buf Nat × Nat × Buf Nat) => s.1 = q * r ∧ s.2.1.length = S.key.length ∧
      s.2.2.1 = q * r ∧ s.2.2.2.length = K + 1 ∧
      (∀ q' k, q' < q → k < r → s.2.1[q' * r + k]? = some (some k)) ∧
      (∀ p, q * r ≤ p → s.2.1[p]? = S.key[p]?) ∧
      ∀ q', q' < q → s.2.2.2[q']? = some (some (q' * r))) ?_ ?_) ?_
    · exact ⟨by simp, rfl, by simp, ho, fun q' k h => by omega, fun p _ => rfl, fun q' h => by omega⟩
    · rintro q ⟨ik, ks, off, os⟩ hq ⟨h1, h2, h3, h4, h5, h6, h7⟩
      dsimp only at h1 h2 h3 h4 h5 h6 h7 ⊢
      have hq1 : (q + 1) * r ≤ K * r := Nat.mul_le_mul_right r hq
      rw [hr]
      refine Sat.bind (Sat.loop (fun k (t : Nat × Buf Nat) => t.1 = q * r + k ∧ t.2.length = S.key.length ∧
        (∀ q' k', q' < q → k' < r → t.2[q' * r + k']? = some (some k')) ∧
        (∀ k', k' < k → t.2[q * r + k']? = some (some k')) ∧ ∀ p, q * r + k ≤ p → t.2[p]? = S.key[p]?)
        ⟨by simp [h1], h2, h5, fun k' h => by omega, fun p hp => h6 p (by omega)⟩ ?_) ?_
      · rintro k ⟨ik', ks'⟩ hk' ⟨g1, g2, g3, g4, g5⟩
        dsimp only at g1 g2 g3 g4 g5 ⊢
        have : (q + 1) * r = q * r + r := by ring
        refine Sat.writeRaw (by omega) ?_
        intro b' hb hx'
        refine Sat.pure ⟨by simp only; omega, by simp only; omega, ?_, ?_, ?_⟩
        · intro q' k' hq' hk''
          have : (q' + 1) * r ≤ q * r := Nat.mul_le_mul_right r hq'
          have : (q' + 1) * r = q' * r + r := by ring
          rw [hx', if_neg (by omega)]
          exact g3 q' k' hq' hk''
        · intro k' hk''
          rw [hx', g1]
          by_cases e : k' = k
          · simp [e]
          · rw [if_neg (by omega)]
            exact g4 k' (by omega)
        · intro p hp
          rw [hx', if_neg (by omega)]
          exact g5 p (by omega)
      · rintro ⟨ik', ks'⟩ ⟨g1, g2, g3, g4, g5⟩
        dsimp only at g1 g2 g3 g4 g5 ⊢
        have hqr : (q + 1) * r = q * r + r := by ring
        refine Sat.writeRaw (by omega) ?_
        intro b' hb hx'
        refine Sat.pure ⟨by simp only; omega, g2, by simp only; omega, by simp only; omega, ?_, ?_, ?_⟩
        · intro q' k' hq' hk'
          by_cases e : q' = q
          · subst e; exact g4 k' hk'
          · exact g3 q' k' (by omega) hk'
        · intro p hp
          exact g5 p (by omega)
        · intro q' hq'
          simp only
          rw [hx']
          by_cases e : q' = q
          · simp [e, h3]
          · rw [if_neg e]; exact h7 q' (by omega)
    · rintro ⟨ik, ks, off, os⟩ ⟨h1, h2, h3, h4, h5, h6, h7⟩
      dsimp only at h1 h2 h3 h4 h5 h6 h7 ⊢
      refine Sat.writeRaw (by omega) ?_
      intro b' hb hx'
      refine Sat.pure ⟨rfl, rfl, hv, h2, by simp only; omega, hx, h5, h6, ?_⟩
      intro q hq
      simp only
      rw [hx']
      by_cases e : q = K
      · simp [e, h3]
      · rw [if_neg e]; exact h7 q (by omega)

/-- If the keys do not fit, the filler writes beyond the key array. -/
theorem fillContinuous_ub [One R] [Add R] (S : Sparse R) (K : Nat) (ho : S.offset.length = K + 1) (hk : S.key.length < K * S.dim.rows) :
    S.fillContinuous = .error .ub := by
  apply OrUb.false
  unfold fillContinuous
  have hv : Sat (ptrLoop 0 S.value.length 1 (fun p (s : R × Buf R) => do
    let d ← s.2.write p s.1
    return (s.1 + 1, d)) (1, S.value)) (fun _ => True) := by
    refine Sat.mono (Sat.raw (fun k (s : R × Buf R) => s.2.length = S.value.length) rfl ?_) (fun _ _ => trivial)
    rintro i ⟨q, d⟩ hi h
    refine Sat.writeRaw (by simp only at h ⊢; omega) ?_
    intro b' hb _
    exact Sat.pure (by simp only at hb h ⊢; omega)
  obtain ⟨⟨x, v⟩, e, -⟩ := hv
  rw [e, bind_ok']
  dsimp only
  rw [if_neg (by omega)]
  have hK : S.offset.length - 1 = K := by omega
  rw [hK]
  refine OrUb.bind (P := fun _ => False) ?_ fun _ h => h.elim
  rw [ptrLoop_eq _ K 0 K 1 _ (by omega) (by omega)]
  refine (OrUb.loop (fun q (s : Nat × Buf Nat × Nat × Buf Nat) => s.1 = q * S.dim.rows ∧ s.2.1.length = S.key.length ∧
    q * S.dim.rows ≤ S.key.length) ⟨by simp, rfl, by simp⟩ ?_).mono ?_
  · rintro q ⟨ik, ks, off, os⟩ hq ⟨h1, h2, h3⟩
    dsimp only at h1 h2 h3 ⊢
    refine OrUb.bind (P := fun t => t.1 = (q + 1) * S.dim.rows ∧ t.2.length = S.key.length ∧ (q + 1) * S.dim.rows ≤ S.key.length) ?_ ?_
    · refine (OrUb.loop (fun k (t : Nat × Buf Nat) => t.1 = q * S.dim.rows + k ∧ t.2.length = S.key.length ∧ q * S.dim.rows + k ≤ S.key.length)
        ⟨by simp [h1], h2, by simpa using h3⟩ ?_).mono ?_
      · rintro k ⟨ik', ks'⟩ hk' ⟨g1, g2, g3⟩
        dsimp only at g1 g2 g3 ⊢
        refine (Buf.orUb_write _ _ _).bind fun ks'' hks => .inl ⟨_, rfl, ?_, ?_, ?_⟩
        · simp only; omega
        · exact hks.2.trans g2
        · have := hks.1; omega
      · rintro ⟨ik', ks'⟩ ⟨g1, g2, g3⟩
        have : (q + 1) * S.dim.rows = q * S.dim.rows + S.dim.rows := by ring
        exact ⟨by rw [g1, this], g2, by rw [this]; exact g3⟩
    · rintro ⟨ik', ks'⟩ ⟨g1, g2, g3⟩
      refine (Buf.orUb_write _ _ _).bind fun os' _ => .inl ⟨_, rfl, g1, g2, g3⟩
  · rintro ⟨ik, ks, off, os⟩ ⟨-, -, h⟩
    omega

/-- Run `q` of the matrix that numbers its elements: keys 0 … r-1, values q·r+1, q·r+2, … -/
def numbered [One R] [Add R] (r K : Nat) : List (List (Nat × R)) :=
  (List.range K).map (fun q => (List.range r).map (fun k => (k, countUp (q * r + k))))

theorem numbered_get [One R] [Add R] {r K q : Nat} (hq : q < K) :
    (numbered r K : List (List (Nat × R)))[q]? = some ((List.range r).map (fun k => (k, countUp (q * r + k)))) := by
  simp [numbered, hq]

theorem numbered_take [One R] [Add R] (r K q : Nat) (hq : q ≤ K) : ((numbered r K : List (List (Nat × R))).take q).flatten.length = q * r := by
  unfold numbered
  rw [← List.map_take, List.take_range, flatten_map_range_length]
  simp [hq]

theorem entryAt_numbered [One R] [Add R] [Zero R] (G : Nat → R) (r k : Nat) (hk : k < r) :
    entryAt ((List.range r).map (fun k => (k, G k))) k = G k := by
  refine entryAt_of_mem (e := (k, G k)) ?_ (by simp [hk])
  rw [List.pairwise_map]
  exact List.pairwise_lt_range

/-- Arrays as the filler leaves them are a valid matrix, if the number of runs and the length of a run are those of the orientation. -/
theorem numbered_valid [One R] [Add R] {T : Sparse R} {r c K : Nat} (hd : T.dim = Dim.mk' r c) (hK : K = T.ori.minorIx r c) (hr : r = T.ori.majorIx r c)
    (ho : T.offset.length = K + 1) (hkv : T.key.length = T.value.length) (hcap : K * r ≤ T.value.length)
    (hv : ∀ p, p < T.value.length → T.value[p]? = some (some (countUp p)))
    (hk : ∀ q k, q < K → k < r → T.key[q * r + k]? = some (some k))
    (hof : ∀ q, q ≤ K → T.offset[q]? = some (some (q * r))) : T.Valid r c (numbered r K) := by
  have hl : (numbered r K : List (List (Nat × R))).length = K := by simp [numbered]
  refine ⟨by rw [hd]; rfl, by rw [hd]; rfl, by rw [hd]; rfl, by rw [hl, hK], by rw [ho, hl], ?_, hkv, ?_, ?_, ?_⟩
  · intro q hq
    rw [hl] at hq
    rw [numbered_take r K q hq]
    exact hof q hq
  · intro p e hp
    obtain ⟨q, run, t, h1, h2, h3⟩ := flatten_locate _ _ _ hp
    have hq : q < K := by
      have := (List.getElem?_eq_some_iff.mp h1).1
      omega
    rw [numbered_get hq] at h1
    cases h1
    rw [numbered_take r K q (by omega)] at h3
    have ht : t < r := by
      have := (List.getElem?_eq_some_iff.mp h2).1
      simpa using this
    have he : e = (t, countUp (q * r + t)) := by
      simp [ht] at h2
      exact h2.symm
    subst he h3
    have : (q + 1) * r ≤ K * r := Nat.mul_le_mul_right r hq
    have : (q + 1) * r = q * r + r := by ring
    exact ⟨hk q t hq ht, hv _ (by omega)⟩
  · intro run h e he
    simp only [numbered, List.mem_map, List.mem_range] at h
    obtain ⟨q, -, rfl⟩ := h
    simp only [List.mem_map, List.mem_range] at he
    obtain ⟨k, hk, rfl⟩ := he
    rw [← hr]
    exact hk
  · intro run h
    simp only [numbered, List.mem_map, List.mem_range] at h
    obtain ⟨q, -, rfl⟩ := h
    rw [List.pairwise_map]
    exact List.pairwise_lt_range

/-- The constructor with `ContinuousNumberFiller`, if everything fits. -/
theorem newContinuous_sat [One R] [Add R] (o : Ori) (r c n : Nat) (hn : n = 0 ∨ r * c ≤ n) :
    Sat (newContinuous (R := R) o r c n) (fun T => T.ori = o ∧ T.dim = Dim.mk' r c ∧ T.nnz = (if n = 0 then r * c else n) ∧
      T.offset.length = c + 1 ∧ T.key.length = T.value.length ∧ c * r ≤ T.value.length ∧
      (∀ p, p < T.value.length → T.value[p]? = some (some (countUp p))) ∧
      (∀ q k, q < c → k < r → T.key[q * r + k]? = some (some k)) ∧
      ∀ q, q ≤ c → T.offset[q]? = some (some (q * r))) := by
  have hcap : c * r ≤ (if n = 0 then r * c else n) := by
    rw [Nat.mul_comm]
    split
    · exact Nat.le_refl _
    · omega
  unfold newContinuous
  refine (fillContinuous_sat (new o r c n : Sparse R) c (by simp [new]) (by simpa [new, Dim.mk'] using hcap)).mono ?_
  rintro T ⟨h1, h2, h3, h4, h5, h6, h7, -, h8⟩
  have hv : T.value.length = if n = 0 then r * c else n := by rw [h3]; simp [new]
  refine ⟨h1, h2, hv, h5, ?_, by rw [hv]; exact hcap, ?_, h7, h8⟩
  · rw [h4, h3]; simp [new]
  · rw [h3]; exact h6

theorem ub_swap {α β γ : Type} (x : Res α) (f : α → Res β) (g : α → Res γ) (hf : ∀ a, f a ≠ .error .ub) (h : (x >>= f) = .error .ub) :
    (x >>= g) = .error .ub := by
  cases x with
  | error e => simpa using h
  | ok a => exact (hf a (by simpa using h)).elim

/-- Converting to row-major, only the number of columns and the reported size matter. -/
theorem toDense_row_dims {T : Type} [Zero T] (cvt : R → T) (S : Sparse R) (d d' : Dim) (hc : d.cols = d'.cols) (hs : d.fullSize = d'.fullSize)
    (h : ({ S with dim := d } : Sparse R).toDense cvt .row = .error .ub) : ({ S with dim := d' } : Sparse R).toDense cvt .row = .error .ub := by
  obtain ⟨r1, c1, n1⟩ := d
  obtain ⟨r2, c2, n2⟩ := d'
  dsimp only at hc hs
  subst hc hs
  unfold toDense at h ⊢
  dsimp only at h ⊢
  rw [Dense.fillBuf_ok, bind_ok'] at h ⊢
  refine ub_swap _ _ _ ?_ h
  rintro ⟨a, b⟩ h
  cases h

end Sparse

/-- Number, from 0, of element (i,j) of an r×c matrix in storage order: column by column, or row by row. -/
def Ori.storageNumber : Ori → Nat → Nat → Nat → Nat → Nat
  | .col, r, _, i, j => i + j * r
  | .row, _, c, i, j => i * c + j

open Sparse

/-- C123, what holds: a column-major sparse matrix, or a square row-major one, constructed with `ContinuousNumberFiller` and no
requested capacity or one of at least r·c, is valid, stores every element, and is the matrix the same filler makes of a dense matrix of the same
orientation: its elements are 1, 2, 3, … in storage order.  (Missing: the other capacities, orientations and fillers, for which the claim is false, see below.) -/
theorem C123_continuous_partial [AddMonoidWithOne R] (o : Ori) (r c n : Nat) (hn : n = 0 ∨ r * c ≤ n) (ho : o = .col ∨ r = c) :
    ∃ S : Sparse R, newContinuous o r c n = .ok S ∧ S.ori = o ∧ S.nnz = (if n = 0 then r * c else n) ∧
      S.Is r c (fun i j => (o.storageNumber r c i j : R) + 1) ∧
      (∃ L, S.Valid r c L ∧ ∀ i j, i < r → j < c → storedAt (L.getD (o.minorIx i j) []) (o.majorIx i j) ≠ none) ∧
      ∃ D, S.toDense id o = .ok D ∧ (Dense.new o r c : Dense R).fillContinuous = .ok D := by
  obtain ⟨S, e, h1, h2, h3, h4, h5, h6, h7, h8, h9⟩ := newContinuous_sat (R := R) o r c n hn
  have hmin : c = o.minorIx r c := by
    rcases ho with rfl | rfl
    · rfl
    · cases o <;> rfl
  have hmaj : r = o.majorIx r c := by
    rcases ho with rfl | rfl
    · rfl
    · cases o <;> rfl
  have hV : S.Valid r c (numbered r c) := numbered_valid h2 (by rw [h1]; exact hmin) (by rw [h1]; exact hmaj) h4 h5 h6 h7 h8 h9
  have key : ∀ i j, i < r → j < c → o.minorIx i j < c ∧ o.majorIx i j < r := by
    intro i j hi hj
    constructor
    · have := minorIx_lt (so := o) hi hj
      omega
    · have := majorIx_lt (so := o) hi hj
      omega
  have hI : S.Is r c (fun i j => (o.storageNumber r c i j : R) + 1) := by
    refine ⟨_, hV, ?_⟩
    intro i j hi hj
    obtain ⟨k1, k2⟩ := key i j hi hj
    rw [h1, List.getD_eq_getElem?_getD, numbered_get k1, Option.getD_some, entryAt_numbered _ _ _ k2, countUp_eq]
    rcases ho with rfl | rfl
    · show ((i + j * r : Nat) : R) + 1 = ((j * r + i : Nat) : R) + 1
      rw [Nat.add_comm]
    · cases o
      · show ((i + j * r : Nat) : R) + 1 = ((j * r + i : Nat) : R) + 1
        rw [Nat.add_comm]
      · rfl
  refine ⟨S, e, h1, h3, hI, ⟨_, hV, ?_⟩, ?_⟩
  · intro i j hi hj
    obtain ⟨k1, k2⟩ := key i j hi hj
    rw [List.getD_eq_getElem?_getD, numbered_get k1, Option.getD_some]
    rw [storedAt_of_mem (e := (o.majorIx i j, countUp (o.minorIx i j * r + o.majorIx i j))) ?_ (by simp [k2])]
    · simp
    · rw [List.pairwise_map]
      exact List.pairwise_lt_range
  · obtain ⟨D, eD, d1, d2⟩ := toDense_sat id rfl o hI
    obtain ⟨B, eB, b1, b2⟩ := C44_continuous_filler (R := R) o r c
    refine ⟨D, eD, ?_⟩
    rw [eB, Blas.is_unique b2 (d2.congr fun i j _ _ => by cases o <;> rfl) (b1.trans d1.symm)]

/-- Non-vacuity: the 2×3 matrix 1 3 5 / 2 4 6. -/
example : newContinuous (R := Nat) .col 2 3 0 =
    .ok ⟨.col, Dim.mk' 2 3, [some 1, some 2, some 3, some 4, some 5, some 6], [some 0, some 1, some 0, some 1, some 0, some 1],
      [some 0, some 2, some 4, some 6]⟩ := by rfl

/-- C123, negative: a requested capacity below the number of elements makes the filler write beyond the key array, for every shape and
orientation. -/
theorem C123_capacity_is_ub [One R] [Add R] (o : Ori) (r c n : Nat) (h0 : n ≠ 0) (hn : n < r * c) :
    newContinuous (R := R) o r c n = .error .ub := by
  refine fillContinuous_ub _ c (by simp [new]) ?_
  simp only [new, if_neg h0, Buf.length_alloc, Dim.mk']
  rw [Nat.mul_comm]
  exact hn

/-- Non-vacuity: a 2×2 matrix with room for 3 elements. -/
example : newContinuous (R := Nat) .col 2 2 3 = .error .ub := C123_capacity_is_ub _ _ _ _ (by decide) (by decide)

/-- C123, negative: a wide row-major matrix has as many runs as columns; converting it to a dense matrix of the same orientation writes
outside that matrix. -/
theorem C123_wide_row_major_is_ub {T : Type} [One R] [Add R] [Zero T] (cvt : R → T) (r c n : Nat) (hr : 0 < r) (hrc : r < c) (hn : n = 0 ∨ r * c ≤ n) :
    ∃ S : Sparse R, newContinuous .row r c n = .ok S ∧ S.dim = Dim.mk' r c ∧ S.toDense cvt .row = .error .ub := by
  obtain ⟨S, e, h1, h2, h3, h4, h5, h6, h7, h8, h9⟩ := newContinuous_sat (R := R) .row r c n hn
  refine ⟨S, e, h2, ?_⟩
  -- the same arrays as a c×c matrix
  have hV : ({ S with dim := Dim.mk' c c } : Sparse R).Valid c c (numbered r c) := by
    have hl : (numbered r c : List (List (Nat × R))).length = c := by simp [numbered]
    refine ⟨rfl, rfl, rfl, ?_, by rw [hl]; exact h4, ?_, h5, ?_, ?_, ?_⟩
    · rw [hl]; simp [h1, Ori.minorIx]
    · intro q hq
      rw [hl] at hq
      rw [numbered_take r c q hq]
      exact h9 q hq
    · intro p e hp
      obtain ⟨q, run, t, g1, g2, g3⟩ := flatten_locate _ _ _ hp
      have hq : q < c := by
        have := (List.getElem?_eq_some_iff.mp g1).1
        omega
      rw [numbered_get hq] at g1
      cases g1
      rw [numbered_take r c q (by omega)] at g3
      have ht : t < r := by
        have := (List.getElem?_eq_some_iff.mp g2).1
        simpa using this
      have he : e = (t, countUp (q * r + t)) := by
        simp [ht] at g2
        exact g2.symm
      subst he g3
      have : (q + 1) * r ≤ c * r := Nat.mul_le_mul_right r hq
      have : (q + 1) * r = q * r + r := by ring
      exact ⟨h8 q t hq ht, h7 _ (by omega)⟩
    · intro run h e he
      simp only [numbered, List.mem_map, List.mem_range] at h
      obtain ⟨q, -, rfl⟩ := h
      simp only [List.mem_map, List.mem_range] at he
      obtain ⟨k, hk, rfl⟩ := he
      simp only [h1, Ori.majorIx]
      omega
    · intro run h
      simp only [numbered, List.mem_map, List.mem_range] at h
      obtain ⟨q, -, rfl⟩ := h
      rw [List.pairwise_map]
      exact List.pairwise_lt_range
  have hbad := Sparse.toDense_small (n := r * c) cvt .row hV ⟨c - 1, _, (0, countUp ((c - 1) * r + 0)),
    numbered_get (by omega), by simp [hr], by
      simp only [h1, if_true, Ori.majorIx, Nat.add_zero]
      exact Nat.mul_le_mul_right c (by omega)⟩
  have hS : S = { S with dim := Dim.mk' r c } := by rw [← h2]
  rw [hS]
  exact toDense_row_dims cvt S ⟨c, c, r * c⟩ _ rfl rfl hbad

/-- C123, negative: a tall row-major matrix is converted without a fault, to wrong elements: in a 3×2 matrix element (1,0) should be the
third one, as in the dense matrix, but is 4. -/
theorem C123_tall_row_major_is_wrong : ∃ (S : Sparse Nat) (D E : Dense Nat), newContinuous .row 3 2 0 = .ok S ∧ S.toDense id .row = .ok D ∧
    (Dense.new .row 3 2 : Dense Nat).fillContinuous = .ok E ∧ D.get 1 0 = .ok 4 ∧ E.get 1 0 = .ok 3 :=
  ⟨_, _, _, rfl, rfl, rfl, rfl, rfl⟩

/-- C123, negative: `AllFiller` writes the values only; keys and offsets stay uninitialised, so using the matrix is undefined, whatever
its shape (with at least one column), capacity and orientation.  The same holds without a filler. -/
theorem C123_all_filler_is_ub {T : Type} [Zero T] (cvt : R → T) (o o' : Ori) (r c n : Nat) (x : R) (hc : 0 < c) :
    (∃ S, newAll o r c n x = .ok S ∧ (∀ p, p < (if n = 0 then r * c else n) → S.value[p]? = some (some x)) ∧
      S.toDense cvt o' = .error .ub) ∧ (new o r c n : Sparse R).toDense cvt o' = .error .ub := by
  have key : ∀ S : Sparse R, S.offset = Buf.alloc (c + 1) → S.toDense cvt o' = .error .ub := by
    intro S hS
    apply OrUb.false
    unfold toDense
    rw [Dense.fillBuf_ok, bind_ok']
    refine OrUb.bind (P := fun _ => False) ?_ fun _ h => h.elim
    unfold forRuns
    rw [if_neg (by rw [hS]; simp), hS, Buf.length_alloc, Nat.add_sub_cancel, ptrLoop_eq _ c 0 c 1 _ (by omega) (by omega)]
    refine (OrUb.loop (fun q _ => q = 0) rfl ?_).mono (fun _ h => by omega)
    rintro q s hq rfl
    right
    have : S.offset.read 0 = .error .ub := by rw [hS]; rfl
    simp only [forRun, Nat.zero_mul, Nat.add_zero, this, bind_error']
  refine ⟨⟨{ (new o r c n : Sparse R) with value := List.replicate (new o r c n : Sparse R).value.length (some x) }, ?_, ?_, key _ rfl⟩, key _ rfl⟩
  · unfold newAll Sparse.fillAll
    rw [Dense.fillBuf_ok]
    rfl
  · intro p hp
    have : (new o r c n : Sparse R).value.length = if n = 0 then r * c else n := by simp [new]
    simp only [this]
    rw [List.getElem?_replicate, if_pos hp]

/-- Non-vacuity. -/
example : (∃ S, newAll .col 2 2 0 (7 : Nat) = .ok S ∧ S.value = [some 7, some 7, some 7, some 7] ∧ S.toDense id .col = .error .ub) := ⟨_, rfl, rfl, rfl⟩

/-! ### C44: resizing -/

/-- C44, `resize` with a filler, whatever the matrix held before: with `ContinuousNumberFiller` the elements are 1, 2, 3, … in storage
order, with `HilbertFiller` 1/(i+j+1). -/
theorem C44_resized [Field R] (A : Dense R) (r c : Nat) :
    (∃ B, A.resizeContinuous r c = .ok B ∧ B.ori = A.ori ∧ B.Is r c (fun i j => (A.ori.storageNumber r c i j : R) + 1)) ∧
    (∃ B, A.resizeHilbert r c = .ok B ∧ B.ori = A.ori ∧ B.Is r c (fun i j => 1 / ((i : R) + (j : R) + 1))) := by
  have hl : (A.resize r c).data.length = r * c := Dense.length_resizeBuf _ _
  constructor
  · obtain ⟨B, e, ho, h⟩ := Dense.fillContinuous_sat (A.resize r c) rfl hl
    refine ⟨B, e, ho, h.congr ?_⟩
    intro i j _ _
    rw [countUp_eq]
    show _ = ((A.resize r c).ori.storageNumber r c i j : R) + 1
    cases (A.resize r c).ori <;> rfl
  · obtain ⟨B, e, ho, h⟩ := Dense.fillHilbert_sat (A.resize r c) rfl hl
    refine ⟨B, e, ho, h.congr ?_⟩
    intro i j _ _
    rw [countUp_eq, countUp_eq]
    congr 1
    ring

/-- C44, `resize` with `DiagonalFiller`: a square matrix becomes x times the identity; other dimensions are rejected by an exception, after which
the matrix has the new dimensions (and, if their product changed, no initialised element). -/
theorem C44_resized_diagonal [Zero R] (A : Dense R) (r c : Nat) (x : R) :
    (r = c → ∃ B, A.resizeDiagonal r c x = (B, .ok ()) ∧ B.ori = A.ori ∧ B.Is r c (fun i j => if i = j then x else 0)) ∧
    (r ≠ c → ∃ B m, A.resizeDiagonal r c x = (B, .error (.throw m)) ∧ B.dim = Dim.mk' r c ∧
      (A.data.length = r * c → B.data = A.data) ∧ (A.data.length ≠ r * c → B.data = List.replicate (r * c) none)) := by
  have hl : (A.resize r c).data.length = r * c := Dense.length_resizeBuf _ _
  constructor
  · rintro rfl
    obtain ⟨B, e, ho, h⟩ := Dense.fillDiagonal_sat (A.resize r r) x rfl hl
    refine ⟨B, ?_, ho, h⟩
    simp only [Dense.resizeDiagonal, e]
  · intro hne
    obtain ⟨m, e⟩ := C44_diagonal_filler_rejects (A.resize r c) x hne
    refine ⟨A.resize r c, m, ?_, rfl, ?_, ?_⟩
    · simp only [Dense.resizeDiagonal, e]
    · intro h; simp [Dense.resize, Dense.resizeBuf, h]
    · intro h; simp [Dense.resize, Dense.resizeBuf, h, Buf.alloc]

/-- Non-vacuity: a 1×2 matrix resized to 2×2, and rejected for 2×3. -/
example : (Dense.ofFn .col 1 2 (fun _ j => j) : Dense Nat).resizeDiagonal 2 2 9
      = (⟨.col, Dim.mk' 2 2, [some 9, some 0, some 0, some 9]⟩, .ok ()) ∧
    (Dense.ofFn .col 1 2 (fun _ j => j) : Dense Nat).resizeContinuous 1 3 = .ok ⟨.col, Dim.mk' 1 3, [some 1, some 2, some 3]⟩ := by
  constructor <;> rfl

end BB
