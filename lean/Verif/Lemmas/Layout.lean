import Verif.Spec
import Verif.Lemmas.Base
import Mathlib.Data.Nat.ModEq

namespace BB

theorem mul_add_lt {i a j b : Nat} (hi : i < a) (hj : j < b) : i + j * a < a * b := by
  have h : (j+1) * a ≤ b * a := Nat.mul_le_mul_right a (by omega)
  have h2 : (j+1) * a = j * a + a := by ring
  rw [Nat.mul_comm a b]; omega

theorem add_mul_inj {a i j k l : Nat} (hi : i < a) (hk : k < a) (h : i + j * a = k + l * a) :
    i = k ∧ j = l := by
  have h1 : (i + j * a) % a = i := by rw [Nat.add_mul_mod_self_right]; exact Nat.mod_eq_of_lt hi
  have h2 : (k + l * a) % a = k := by rw [Nat.add_mul_mod_self_right]; exact Nat.mod_eq_of_lt hk
  have hik : i = k := by rw [← h1, ← h2, h]
  refine ⟨hik, ?_⟩
  have : j * a = l * a := by omega
  exact Nat.eq_of_mul_eq_mul_right (by omega) this

theorem View.pos_inj {v : View} {n : Nat} (hf : v.Fits n) {i j k l : Nat}
    (hi : i < v.rows) (hj : j < v.cols) (hk : k < v.rows) (hl : l < v.cols)
    (h : v.pos i j = v.pos k l) : i = k ∧ j = l := by
  have hld := hf.ld
  unfold View.pos at h
  cases ho : v.ori with
  | col =>
    simp only [ho] at h hld
    exact add_mul_inj (by omega) (by omega) h
  | row =>
    simp only [ho] at h hld
    have := add_mul_inj (a := v.ldCols) (i := j) (k := l) (j := i) (l := k) (by omega) (by omega)
      (by omega)
    exact ⟨this.2, this.1⟩

theorem View.plain_fits (o : Ori) (r c : Nat) : (View.plain o r c).Fits (r * c) where
  ld := by cases o <;> simp [View.plain]
  bound := by
    intro i j hi hj
    cases o with
    | col =>
      simp only [View.plain, View.pos] at *
      have := mul_add_lt hi hj
      omega
    | row =>
      simp only [View.plain, View.pos] at *
      have := mul_add_lt hj hi
      rw [Nat.mul_comm r c]; omega

theorem View.fits_col {v : View} {n : Nat} (ho : v.ori = .col) (h1 : v.rows ≤ v.ldRows)
    (h2 : v.base + v.rows + (v.cols - 1) * v.ldRows ≤ n) : v.Fits n where
  ld := by rw [ho]; exact h1
  bound := by
    intro i j hi hj
    simp only [View.pos, ho]
    have : j * v.ldRows ≤ (v.cols - 1) * v.ldRows := Nat.mul_le_mul_right _ (by omega)
    omega

@[simp] theorem assertThat_true {c : Bool} (h : c = true) : assertThat c = .ok () := by simp [assertThat, h]

theorem View.get_eq {R : Type} {v : View} {b : Buf R} {i j : Nat} (hi : i < v.rows) (hj : j < v.cols) :
    v.get b i j = b.read (v.base + v.pos i j) := by
  simp [View.get, hi, hj, assertThat]

theorem View.set_eq {R : Type} {v : View} {b : Buf R} {i j : Nat} {x : R} (hi : i < v.rows) (hj : j < v.cols) :
    v.set b i j x = b.write (v.base + v.pos i j) x := by
  simp [View.set, hi, hj, assertThat]

theorem View.get_set {R : Type} {v : View} {b b' : Buf R} (hf : v.Fits b.length) {i j k l : Nat} {x : R}
    (hi : i < v.rows) (hj : j < v.cols) (hk : k < v.rows) (hl : l < v.cols)
    (hw : v.set b i j x = .ok b') :
    v.get b' k l = if k = i ∧ l = j then .ok x else v.get b k l := by
  rw [View.set_eq hi hj, Buf.write_ok (hf.bound i j hi hj)] at hw
  cases hw
  rw [View.get_eq hk hl, View.get_eq hk hl, Buf.read_set (hf.bound i j hi hj)]
  by_cases h : k = i ∧ l = j
  · simp [h]
  · have : v.base + v.pos i j ≠ v.base + v.pos k l := by
      intro he
      have := View.pos_inj hf hi hj hk hl (by omega)
      exact h ⟨this.1.symm, this.2.symm⟩
    rw [if_neg this, if_neg h]

theorem View.rowEnd_eq (v : View) (i : Nat) : v.rowEnd i = v.rowBegin i + v.cols * v.rowStride := by
  unfold View.rowEnd View.rowBegin View.rowStride
  cases v.ori <;> simp; ring

theorem View.colEnd_eq (v : View) (j : Nat) : v.colEnd j = v.colBegin j + v.rows * v.colStride := by
  unfold View.colEnd View.colBegin View.colStride
  cases v.ori <;> simp

theorem View.rowAt (v : View) (i j : Nat) : v.rowBegin i + j * v.rowStride = v.base + v.pos i j := by
  unfold View.pos View.rowBegin View.rowStride
  cases v.ori <;> simp <;> ring

theorem View.colAt (v : View) (i j : Nat) : v.colBegin j + i * v.colStride = v.base + v.pos i j := by
  unfold View.pos View.colBegin View.colStride
  cases v.ori <;> simp <;> ring

theorem View.rowStride_pos {v : View} {n i : Nat} (hf : v.Fits n) (hi : i < v.rows) : 0 < v.rowStride := by
  have := hf.ld
  unfold View.rowStride
  cases h : v.ori <;> simp only [h] at this ⊢ <;> omega

theorem View.colStride_pos {v : View} {n j : Nat} (hf : v.Fits n) (hj : j < v.cols) : 0 < v.colStride := by
  have := hf.ld
  unfold View.colStride
  cases h : v.ori <;> simp only [h] at this ⊢ <;> omega

/-- Row loops over any view run exactly over the columns `0..cols-1`. -/
theorem View.rowLoop {σ : Type} {v : View} {n i : Nat} (hf : v.Fits n) (hi : i < v.rows)
    (f : Nat → σ → Res σ) (s : σ) :
    ptrLoop (v.rowBegin i) (v.rowEnd i) v.rowStride f s
      = loopN v.cols (fun j => f (v.base + v.pos i j)) s := by
  rw [ptrLoop_eq f v.cols _ _ _ _ (fun _ => View.rowStride_pos hf hi) (v.rowEnd_eq i)]
  apply loopN_congr
  intro j s _
  rw [View.rowAt]

theorem View.colLoop {σ : Type} {v : View} {n j : Nat} (hf : v.Fits n) (hj : j < v.cols)
    (f : Nat → σ → Res σ) (s : σ) :
    ptrLoop (v.colBegin j) (v.colEnd j) v.colStride f s
      = loopN v.rows (fun i => f (v.base + v.pos i j)) s := by
  rw [ptrLoop_eq f v.rows _ _ _ _ (fun _ => View.colStride_pos hf hj) (v.colEnd_eq j)]
  apply loopN_congr
  intro i s _
  rw [View.colAt]

theorem loopN_append {α : Type} (n : Nat) (g : Nat → α) :
    loopN n (fun i acc => .ok (acc ++ [g i])) [] = (.ok ((List.range n).map g) : Res (List α)) := by
  induction n with
  | zero => rfl
  | succ n ih => simp [loopN, ih, Except.bind, List.range_succ]

/-! ### Striped iterators -/

/-- Offset of the t-th cell of a striped storage: block `t / cont`, position `t % cont`. -/
def Striped.cell (s : Striped) (t : Nat) : Int :=
  s.data + ((t / s.cont * (s.cont + s.sep) + t % s.cont : Nat) : Int)

/-- Iterator standing on block k, position p. -/
def Striped.at (s : Striped) (k p : Nat) : SIter :=
  SIter.mk' (s.data + ((k * (s.cont + s.sep) + p : Nat) : Int)) p k s.cont s.sep s.nb

/-- The sizes fit the machine types. -/
structure Striped.Ok (s : Striped) : Prop where
  cont_pos : 0 < s.cont
  nb_pos : 0 < s.nb
  cont_lt : s.cont < sizeMod
  sep_lt : s.sep + 1 < sizeMod
  nb_lt : (s.nb : Int) ≤ intMax

theorem wrap_pred {c : Nat} (h0 : 0 < c) (h1 : c < sizeMod) : (c + (sizeMod - 1)) % sizeMod = c - 1 := by
  have : 0 < sizeMod := by decide
  have e : c + (sizeMod - 1) = (c - 1) + sizeMod := by omega
  rw [e, Nat.add_mod_right]
  exact Nat.mod_eq_of_lt (by omega)

theorem Striped.contM {s : Striped} (h : s.Ok) (k p : Nat) : (s.at k p).contMinus1 = s.cont - 1 :=
  wrap_pred h.cont_pos h.cont_lt

theorem Striped.incr_in {s : Striped} (h : s.Ok) {k p : Nat} (hp : p + 1 < s.cont) :
    (s.at k p).incr = .ok (s.at k (p+1)) := by
  have hc := s.contM h k p
  have hpos : (s.at k p).pos = p := rfl
  unfold SIter.incr
  rw [if_neg (by rw [hc, hpos]; omega)]
  have hptr : (s.at k p).ptr + 1 = (s.at k (p+1)).ptr := by
    simp only [Striped.at, SIter.mk']
    push_cast; ring
  rw [hptr]; rfl

theorem Striped.incr_end {s : Striped} (h : s.Ok) {k : Nat} (hk : k < s.nb) :
    (s.at k (s.cont - 1)).incr =
      .ok (if k + 1 = s.nb then { s.at k (s.cont-1) with ptr := s.endPtr, pos := 0, block := (k:Int)+1 }
           else s.at (k+1) 0) := by
  have hc := s.contM h k (s.cont - 1)
  have hpos : (s.at k (s.cont - 1)).pos = s.cont - 1 := rfl
  have hnb := h.nb_lt
  have hcp := h.cont_pos
  have hblk : (s.at k (s.cont-1)).block = k := rfl
  have hmod : ((k:Int) + 1) % (sizeMod : Int) = k + 1 := by
    apply Int.emod_eq_of_lt
    · omega
    · unfold intMax at hnb
      have : (sizeMod : Int) = 2^64 := rfl
      omega
  unfold SIter.incr
  rw [if_pos (by rw [hc, hpos]), hblk, if_neg (by unfold intMax at *; omega)]
  simp only [hmod]
  have hnbf : (s.at k (s.cont-1)).nbBlocks = s.nb := rfl
  rw [hnbf]
  by_cases he : k + 1 = s.nb
  · rw [if_pos he, if_pos (by omega)]
    have hptr : (s.at k (s.cont - 1)).ptr + 1 = s.endPtr := by
      simp only [Striped.at, SIter.mk', Striped.endPtr]
      have e1 : ((s.cont - 1 : Nat) : Int) = (s.cont : Int) - 1 := by omega
      have e2 : (s.nb : Int) = k + 1 := by omega
      push_cast
      rw [e1, e2]; ring
    rw [hptr]
  · rw [if_neg he, if_neg (by omega)]
    have hs1 : (s.at k (s.cont - 1)).sepPlus1 = s.sep + 1 := Nat.mod_eq_of_lt h.sep_lt
    have hptr : (s.at k (s.cont - 1)).ptr + ((s.at k (s.cont - 1)).sepPlus1 : Int) = (s.at (k+1) 0).ptr := by
      rw [hs1]
      simp only [Striped.at, SIter.mk']
      have e1 : ((s.cont - 1 : Nat) : Int) = (s.cont : Int) - 1 := by omega
      push_cast
      rw [e1]; ring
    rw [hptr]
    simp [Striped.at, SIter.mk']

theorem Striped.cell_at {s : Striped} {k p : Nat} (hp : p < s.cont) :
    s.cell (p + k * s.cont) = (s.at k p).ptr := by
  have hc : 0 < s.cont := by omega
  have h1 : (p + k * s.cont) / s.cont = k := by
    rw [Nat.add_mul_div_right _ _ hc, Nat.div_eq_of_lt hp]; omega
  have h2 : (p + k * s.cont) % s.cont = p := by
    rw [Nat.add_mul_mod_self_right]; exact Nat.mod_eq_of_lt hp
  simp only [Striped.cell, h1, h2]; rfl

theorem Striped.at_lt_end {s : Striped} {k p : Nat} (hk : k < s.nb) (hp : p < s.cont) :
    (s.at k p).ptr < s.endPtr := by
  simp only [Striped.at, SIter.mk', Striped.endPtr]
  have hk1 : (k:Int) + 1 ≤ s.nb := by omega
  have e : ((k+1) * s.cont : Int) ≤ s.nb * s.cont := Int.mul_le_mul_of_nonneg_right hk1 (by omega)
  have e2 : ((k : Int) * s.sep) ≤ ((s.nb:Int) - 1) * s.sep := Int.mul_le_mul_of_nonneg_right (by omega) (by omega)
  push_cast
  have : ((p:Int)) < s.cont := by omega
  nlinarith

theorem Striped.walk_eq {s : Striped} (h : s.Ok) (m k p fuel : Nat) (hk : k < s.nb) (hp : p < s.cont)
    (hm : p + k * s.cont + m = s.nb * s.cont) (hf : m < fuel) :
    (s.at k p).walk fuel s.endPtr = .ok ((List.range' (p + k * s.cont) m).map s.cell) := by
  induction m generalizing k p fuel with
  | zero =>
    exfalso
    have : (k+1) * s.cont ≤ s.nb * s.cont := Nat.mul_le_mul_right _ (by omega)
    have e : (k+1) * s.cont = k * s.cont + s.cont := by ring
    omega
  | succ m ih =>
    obtain ⟨fuel, rfl⟩ : ∃ f, fuel = f + 1 := ⟨fuel - 1, by omega⟩
    have hne : (s.at k p).ptr ≠ s.endPtr := ne_of_lt (Striped.at_lt_end hk hp)
    rw [SIter.walk, if_neg hne]
    rw [List.range'_succ, List.map_cons, Striped.cell_at hp]
    by_cases hin : p + 1 < s.cont
    · rw [Striped.incr_in h hin]
      have := ih k (p+1) fuel hk hin (by omega) (by omega)
      have e : p + 1 + k * s.cont = p + k * s.cont + 1 := by omega
      rw [e] at this
      simp [this]
    · have hpe : p = s.cont - 1 := by omega
      subst hpe
      rw [Striped.incr_end h hk]
      by_cases hlast : k + 1 = s.nb
      · have hm0 : m = 0 := by
          rw [← hlast] at hm
          have e : (k+1) * s.cont = k * s.cont + s.cont := by ring
          omega
        subst hm0
        obtain ⟨fuel, rfl⟩ : ∃ f, fuel = f + 1 := ⟨fuel - 1, by omega⟩
        simp [hlast, SIter.walk]
      · have := ih (k+1) 0 fuel (by omega) (by omega)
          (by have e : (k+1) * s.cont = k * s.cont + s.cont := by ring
              omega) (by omega)
        have e : 0 + (k+1) * s.cont = s.cont - 1 + k * s.cont + 1 := by
          have e : (k+1) * s.cont = k * s.cont + s.cont := by ring
          omega
        rw [e] at this
        simp [hlast, this]

theorem Striped.decr_in {s : Striped} {k p : Nat} :
    (s.at k (p+1)).decr = s.at k p := by
  unfold SIter.decr
  have hpos : (s.at k (p+1)).pos = p+1 := rfl
  rw [if_neg (by rw [hpos]; omega)]
  have hptr : (s.at k (p+1)).ptr - 1 = (s.at k p).ptr := by
    simp only [Striped.at, SIter.mk']
    push_cast; ring
  rw [hptr]; rfl

theorem Striped.decr_block {s : Striped} (h : s.Ok) {k : Nat} :
    (s.at (k+1) 0).decr = s.at k (s.cont - 1) := by
  unfold SIter.decr
  have hpos : (s.at (k+1) 0).pos = 0 := rfl
  have hblk : (s.at (k+1) 0).block = ((k+1 : Nat) : Int) := rfl
  rw [if_pos hpos, hblk]
  have hb : (((k+1 : Nat) : Int) - 1) = k := by push_cast; ring
  simp only [hb]
  rw [if_neg (by omega)]
  have hs1 : (s.at (k+1) 0).sepPlus1 = s.sep + 1 := Nat.mod_eq_of_lt h.sep_lt
  have hc := s.contM h (k+1) 0
  have hptr : (s.at (k+1) 0).ptr - ((s.at (k+1) 0).sepPlus1 : Int) = (s.at k (s.cont-1)).ptr := by
    rw [hs1]
    simp only [Striped.at, SIter.mk']
    have hcp := h.cont_pos
    have e1 : ((s.cont - 1 : Nat) : Int) = (s.cont : Int) - 1 := by omega
    push_cast
    rw [e1]; ring
  rw [hptr, hc]
  simp [Striped.at, SIter.mk', wrap_pred h.cont_pos h.cont_lt]

theorem Striped.walkBack_eq {s : Striped} (h : s.Ok) (m k p fuel : Nat) (hp : p < s.cont)
    (hm : p + k * s.cont + 1 = m) (hf : m < fuel) :
    (s.at k p).walkBack fuel s.rendPtr = .ok (((List.range m).map s.cell).reverse) := by
  induction m generalizing k p fuel with
  | zero => omega
  | succ m ih =>
    obtain ⟨fuel, rfl⟩ : ∃ f, fuel = f + 1 := ⟨fuel - 1, by omega⟩
    have hne : (s.at k p).ptr ≠ s.rendPtr := by
      simp only [Striped.at, SIter.mk', Striped.rendPtr]; omega
    rw [SIter.walkBack, if_neg hne]
    have hmm : m = p + k * s.cont := by omega
    rw [List.range_succ, List.map_append, List.reverse_append]
    simp only [List.map_cons, List.map_nil, List.reverse_cons, List.reverse_nil, List.nil_append,
      List.cons_append]
    have hcell : s.cell m = (s.at k p).ptr := by rw [hmm]; exact Striped.cell_at hp
    rw [hcell]
    match p, k with
    | p+1, k =>
      rw [Striped.decr_in, ih k p fuel (by omega) (by omega) (by omega)]; rfl
    | 0, k+1 =>
      have e : (k+1) * s.cont = k * s.cont + s.cont := by ring
      rw [Striped.decr_block h, ih k (s.cont-1) fuel (by omega) (by omega) (by omega)]; rfl
    | 0, 0 =>
      have hm0 : m = 0 := by omega
      subst hm0
      obtain ⟨fuel, rfl⟩ : ∃ f, fuel = f + 1 := ⟨fuel - 1, by omega⟩
      have : (s.at 0 0).decr.ptr = s.rendPtr := by
        simp [SIter.decr, Striped.at, SIter.mk', Striped.rendPtr]
      simp [SIter.walkBack, this]

theorem SIter.incr_ptr {it it' : SIter} (h : it.incr = .ok it') : it.ptr ≤ it'.ptr := by
  unfold SIter.incr at h
  split at h
  · split at h
    · cases h
    · dsimp only at h
      split at h
      · cases h; simp
      · cases h; simp
  · cases h; simp

theorem SIter.walk_beyond (stop : Int) (fuel : Nat) (it : SIter) (h : stop < it.ptr) :
    it.walk fuel stop = .error .ub := by
  induction fuel generalizing it with
  | zero => rfl
  | succ fuel ih =>
    rw [SIter.walk, if_neg (by omega)]
    cases hi : it.incr with
    | error e =>
      unfold SIter.incr at hi
      split at hi
      · split at hi
        · cases hi; rfl
        · dsimp only at hi
          split at hi <;> cases hi
      · cases hi
    | ok it' =>
      have := SIter.incr_ptr hi
      simp [ih it' (by omega)]

end BB
