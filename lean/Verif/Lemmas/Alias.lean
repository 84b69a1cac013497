import Verif.Model.Alias
import Verif.Lemmas.Converter
import Verif.Lemmas.Blocked

/-! Lemmas about in-place loops over one array. -/

namespace BB.Alias

variable {R : Type}

/-- Memory after the first `n` steps `mem[p t] := op mem[p t] mem[q t]`. -/
def run (op : R → R → R) (p q : Nat → Nat) : Nat → (Nat → R) → (Nat → R)
  | 0, m => m
  | n + 1, m => Function.update (run op p q n m) (p n) (op (run op p q n m (p n)) (run op p q n m (q n)))

theorem run_other (op : R → R → R) (p q : Nat → Nat) (n : Nat) (m : Nat → R) (x : Nat) (h : ∀ t < n, p t ≠ x) :
    run op p q n m x = m x := by
  induction n with
  | zero => rfl
  | succ n ih =>
    rw [run, Function.update_of_ne (h n (by omega)).symm, ih (fun t ht => h t (by omega))]

theorem run_later (op : R → R → R) (p q : Nat → Nat) (n k : Nat) (m : Nat → R) (x : Nat) (hk : k ≤ n)
    (h : ∀ t < n, k ≤ t → p t ≠ x) : run op p q n m x = run op p q k m x := by
  induction n with
  | zero => rw [Nat.le_zero.1 hk]
  | succ n ih =>
    by_cases e : k = n + 1
    · rw [e]
    · rw [run, Function.update_of_ne (h n (by omega) (by omega)).symm, ih (by omega) (fun t ht hkt => h t (by omega) hkt)]

/-- If no written cell is read later, the steps act on the old values. -/
theorem run_safe (op : R → R → R) (p q : Nat → Nat) (n : Nat) (m : Nat → R)
    (hp : ∀ s t, s < t → t < n → p s ≠ p t) (hq : ∀ s t, s < t → t < n → p s ≠ q t) (t : Nat) (ht : t < n) :
    run op p q n m (p t) = op (m (p t)) (m (q t)) := by
  rw [run_later op p q n (t+1) m (p t) ht (fun s hs hts => (hp t s (by omega) hs).symm)]
  rw [run, Function.update_self, run_other op p q t m (p t) (fun s hs => hp s t hs ht),
    run_other op p q t m (q t) (fun s hs => hq s t hs ht)]

/-- The first step that reads a cell written before sees the new value. -/
theorem run_hazard (op : R → R → R) (p q : Nat → Nat) (n : Nat) (m : Nat → R)
    (hp : ∀ s t, s < t → t < n → p s ≠ p t) (hz : ∃ t s, s < t ∧ t < n ∧ p s = q t) :
    ∃ s t, s < t ∧ t < n ∧ p s = q t ∧ run op p q n m (p t) = op (m (p t)) (op (m (p s)) (m (q s))) := by
  classical
  obtain ⟨s, hst, htn, e⟩ := Nat.find_spec hz
  have hmin := fun t' => Nat.find_min hz (m := t')
  generalize Nat.find hz = t at hst htn e hmin
  refine ⟨s, t, hst, htn, e, ?_⟩
  have hq : ∀ s' t', s' < t' → t' < t → p s' ≠ q t' := by
    intro s' t' h1 h2 he
    exact hmin t' h2 ⟨s', h1, by omega, he⟩
  rw [run_later op p q n (t+1) m (p t) htn (fun s hs hts => (hp t s (by omega) hs).symm)]
  rw [run, Function.update_self, run_other op p q t m (p t) (fun s hs => hp s t hs htn), ← e,
    run_safe op p q t m (fun a b h1 h2 => hp a b h1 (by omega)) hq s hst]

/-- The array holds the values of `m`. -/
def Holds (d : Buf R) (n : Nat) (m : Nat → R) : Prop := d.length = n ∧ ∀ x < n, d[x]? = some (some (m x))

theorem Holds.read {d : Buf R} {n : Nat} {m : Nat → R} (h : Holds d n m) {x : Nat} (hx : x < n) : d.read x = .ok (m x) :=
  Buf.read_ok.2 (h.2 x hx)

theorem Holds.write {d : Buf R} {n : Nat} {m : Nat → R} (h : Holds d n m) {x : Nat} (hx : x < n) (v : R) :
    ∃ d', d.write x v = .ok d' ∧ Holds d' n (Function.update m x v) := by
  refine ⟨_, Buf.write_ok (by rw [h.1]; exact hx), by rw [List.length_set]; exact h.1, fun y hy => ?_⟩
  rw [List.getElem?_set]
  by_cases e : x = y
  · subst e
    rw [if_pos rfl, if_pos (by rw [h.1]; exact hx), Function.update_self]
  · rw [if_neg e, Function.update_of_ne (Ne.symm e), h.2 y hy]

theorem incr_next {s : Striped} (h : s.Ok) {t : Nat} (ht : t < s.nb * s.cont) :
    ∃ it, (s.at (t / s.cont) (t % s.cont)).incr = .ok it ∧
      (t + 1 < s.nb * s.cont → it = s.at ((t+1) / s.cont) ((t+1) % s.cont)) := by
  have hc := h.cont_pos
  have hk : t / s.cont < s.nb := Nat.div_lt_of_lt_mul (by rw [Nat.mul_comm]; exact ht)
  have hm : t % s.cont < s.cont := Nat.mod_lt _ hc
  have e := Nat.div_add_mod t s.cont
  by_cases hin : t % s.cont + 1 < s.cont
  · refine ⟨_, Striped.incr_in h hin, fun _ => ?_⟩
    have h1 : (t + 1) / s.cont = t / s.cont := by
      rw [Nat.succ_div, if_neg, Nat.add_zero]
      intro hd
      have := Nat.mod_eq_zero_of_dvd hd
      rw [Nat.add_mod, Nat.mod_eq_of_lt (show 1 < s.cont by omega), Nat.mod_eq_of_lt hin] at this
      omega
    have h2 : (t + 1) % s.cont = t % s.cont + 1 := by
      rw [Nat.add_mod, Nat.mod_eq_of_lt (show 1 < s.cont by omega), Nat.mod_eq_of_lt hin]
    rw [h1, h2]
  · have hpe : t % s.cont = s.cont - 1 := by omega
    rw [hpe, Striped.incr_end h hk]
    refine ⟨_, rfl, fun hlt => ?_⟩
    have e1 : t + 1 = s.cont * (t / s.cont + 1) := by rw [Nat.mul_add, Nat.mul_one]; omega
    have hne : t / s.cont + 1 ≠ s.nb := by
      intro hh
      rw [hh] at e1
      rw [e1, Nat.mul_comm] at hlt
      omega
    rw [if_neg hne, e1, Nat.mul_div_cancel_left _ hc, Nat.mul_mod_right]

/-- The striped loop performs the steps `mem[cell_a t] := op mem[cell_a t] mem[cell_b t]` in order. -/
theorem assignStriped_run (op : R → R → R) {sa sb : Striped} (ha : sa.Ok) (hb : sb.Ok) (hn : sb.nb * sb.cont = sa.nb * sa.cont)
    {fuel : Nat} (hf : sa.nb * sa.cont < fuel) {d : Buf R} {n : Nat} {m : Nat → R} (hd : Holds d n m) {p q : Nat → Nat}
    (hp : ∀ t, t < sa.nb * sa.cont → sa.cell t = (p t : Int) ∧ p t < n)
    (hq : ∀ t, t < sa.nb * sa.cont → sb.cell t = (q t : Int) ∧ q t < n) :
    Sat (assignStriped op sa sb fuel d) (fun d' => Holds d' n (run op p q (sa.nb * sa.cont) m)) := by
  have hba : sa.begin = sa.at 0 0 := by simp [Striped.begin, Striped.at]
  have hbb : sb.begin = sb.at 0 0 := by simp [Striped.begin, Striped.at]
  unfold assignStriped
  rw [hba, Striped.loop_eq ha _ (sa.nb * sa.cont) 0 0 fuel ha.nb_pos ha.cont_pos (by simp) hf]
  refine Sat.bind (P := fun s : SIter × Buf R => Holds s.2 n (run op p q (sa.nb * sa.cont) m)) ?_ (fun s h => Sat.pure h)
  refine Sat.mono (Sat.loop (fun t (s : SIter × Buf R) =>
    (t < sb.nb * sb.cont → s.1 = sb.at (t / sb.cont) (t % sb.cont)) ∧ Holds s.2 n (run op p q t m)) ?_ ?_) (fun s h => h.2)
  · exact ⟨fun _ => by simp [hbb], hd⟩
  · rintro t ⟨it, d⟩ ht ⟨h1, h2⟩
    have ht' : t < sb.nb * sb.cont := by rw [hn]; exact ht
    have hit := h1 ht'
    simp only at hit h2
    subst hit
    obtain ⟨ep, lp⟩ := hp t ht
    obtain ⟨eq, lq⟩ := hq t ht
    have hptr : (sb.at (t / sb.cont) (t % sb.cont)).ptr = (q t : Int) := by
      rw [← eq, ← Striped.cell_at (Nat.mod_lt _ hb.cont_pos)]
      congr 1
      have := Nat.div_add_mod t sb.cont
      rw [Nat.mul_comm] at this
      omega
    obtain ⟨d', e', hd'⟩ := h2.write lp (op (run op p q t m (p t)) (run op p q t m (q t)))
    obtain ⟨it', ei, hi⟩ := incr_next hb ht'
    refine ⟨(it', d'), ?_, hi, hd'⟩
    have hcell : sa.cell (0 + 0 * sa.cont + t) = (p t : Int) := by simpa using ep
    simp only [assignStep, hcell, hptr, Buf.readI, writeI, Int.toNat_natCast]
    have hnn : ∀ x : Nat, ¬ ((x : Int) < 0) := fun x => by omega
    simp only [if_neg (hnn _), h2.read lp, h2.read lq, bind_ok', e', ei, pure_ok']

/-- The cursor loops of `copy` perform the steps `mem[dst t] := mem[src t]` row by row. -/
theorem copyViews_run {src dst : View} {d : Buf R} {n : Nat} {m : Nat → R} (hd : Holds d n m) (hs : src.Fits n) (hdst : dst.Fits n)
    (h1 : dst.rows = src.rows) (h2 : dst.cols = src.cols) :
    Sat (copyViews src dst d) (fun d' => Holds d' n (run (fun _ y => y)
      (fun t => dst.base + dst.pos (t / src.cols) (t % src.cols)) (fun t => src.base + src.pos (t / src.cols) (t % src.cols))
      (src.rows * src.cols) m)) := by
  unfold copyViews
  refine Sat.raw (fun i d => Holds d n (run (fun _ y => y)
      (fun t => dst.base + dst.pos (t / src.cols) (t % src.cols)) (fun t => src.base + src.pos (t / src.cols) (t % src.cols))
      (i * src.cols) m)) ?_ ?_
  · simpa [run] using hd
  · intro i d hi hI
    refine Sat.bind (P := fun t : Nat × Buf R => Holds t.2 n (run (fun _ y => y)
      (fun t => dst.base + dst.pos (t / src.cols) (t % src.cols)) (fun t => src.base + src.pos (t / src.cols) (t % src.cols))
      ((i+1) * src.cols) m)) ?_ (fun t h => Sat.pure h)
    refine Sat.mono (Sat.rowLoop hs hi (fun j (t : Nat × Buf R) => t.1 = dst.base + dst.pos i j ∧ Holds t.2 n (run (fun _ y => y)
      (fun t => dst.base + dst.pos (t / src.cols) (t % src.cols)) (fun t => src.base + src.pos (t / src.cols) (t % src.cols))
      (i * src.cols + j) m)) ?_ ?_) ?_
    · refine ⟨?_, hI⟩
      rw [← View.rowAt]; simp
    · rintro j ⟨pt, d⟩ hj ⟨e, hH⟩
      simp only at e hH
      subst e
      have hdiv : (i * src.cols + j) / src.cols = i := by
        rw [Nat.add_comm, Nat.add_mul_div_right _ _ (by omega), Nat.div_eq_of_lt hj, Nat.zero_add]
      have hmod : (i * src.cols + j) % src.cols = j := by
        rw [Nat.add_comm, Nat.add_mul_mod_self_right, Nat.mod_eq_of_lt hj]
      have lq := hs.bound i j hi hj
      have lp := hdst.bound i j (by omega) (by omega)
      have hr := hH.read lq
      obtain ⟨d', e', hd'⟩ := hH.write lp (run (fun _ y => y)
        (fun t => dst.base + dst.pos (t / src.cols) (t % src.cols)) (fun t => src.base + src.pos (t / src.cols) (t % src.cols))
        (i * src.cols + j) m (src.base + src.pos i j))
      refine ⟨_, by simp only [copyStep, hr, bind_ok', e', pure_ok']; rfl, ?_, ?_⟩
      · show dst.base + dst.pos i j + dst.rowStride = _
        rw [← View.rowAt, ← View.rowAt]; ring
      · show Holds d' n (run _ _ _ ((i * src.cols + j) + 1) m)
        rw [run]
        simp only [hdiv, hmod]
        exact hd'
    · rintro ⟨q, d⟩ ⟨-, h⟩
      rw [Nat.add_mul, Nat.one_mul]; exact h

end BB.Alias
