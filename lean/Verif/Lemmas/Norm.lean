import Verif.SpecNorm
import Verif.Lemmas.Converter
import Verif.Lemmas.Blocked

/-! Auxiliary lemmas about norms. -/

namespace BB

variable {R : Type}

theorem foldBuf_map {V : Type} (step : V → R → V) (l : List R) (s : V) :
    foldBuf step (l.map some) s = .ok (l.foldl step s) := by
  unfold foldBuf
  obtain ⟨n, e, hn⟩ := Sat.raw (n := (l.map some).length) (f := fun p s => do
    let x ← Buf.read (l.map some) p
    return step s x) (s := s)
    (fun k v => v = (l.take k).foldl step s) (by simp) (by
      rintro i v hi rfl
      have hi' : i < l.length := by simpa using hi
      refine Sat.read (v := l[i]) (Buf.read_ok.2 (by simp [hi'])) (Sat.pure ?_)
      rw [List.take_succ, List.foldl_append]
      simp [hi'])
  rw [e, hn]
  simp

/-- The list `l` holds the elements of the r×c matrix `f`, except perhaps zeros. -/
structure Covers (l : List ℝ) (r c : Nat) (f : Nat → Nat → ℝ) : Prop where
  sums : ∀ g : ℝ → ℝ, g 0 = 0 → (l.map g).sum = ∑ i ∈ Finset.range r, ∑ j ∈ Finset.range c, g (f i j)
  mem : ∀ x ∈ l, ∃ i j, i < r ∧ j < c ∧ f i j = x
  cov : ∀ i j, i < r → j < c → f i j = 0 ∨ f i j ∈ l

theorem sum_range_mul' (F : Nat → ℝ) (N M : Nat) :
    ∑ t ∈ Finset.range (N * M), F t = ∑ q ∈ Finset.range N, ∑ k ∈ Finset.range M, F (q * M + k) := by
  induction N with
  | zero => simp
  | succ N ih =>
    rw [show (N+1) * M = N * M + M by ring, Finset.sum_range_add, ih, Finset.sum_range_succ]

theorem unpos_add_row {r c q k : Nat} (hk : k < c) : Dense.unpos .row r c (q * c + k) = (q, k) := by
  have hc : 0 < c := by omega
  simp only [Dense.unpos, Prod.mk.injEq]
  exact ⟨by rw [Nat.mul_comm, Nat.mul_add_div hc, Nat.div_eq_of_lt hk]; rfl,
    by rw [Nat.mul_comm, Nat.mul_add_mod, Nat.mod_eq_of_lt hk]⟩

theorem unpos_add_col {r c q k : Nat} (hk : k < r) : Dense.unpos .col r c (q * r + k) = (k, q) := by
  have hc : 0 < r := by omega
  simp only [Dense.unpos, Prod.mk.injEq]
  exact ⟨by rw [Nat.mul_comm, Nat.mul_add_mod, Nat.mod_eq_of_lt hk],
    by rw [Nat.mul_comm, Nat.mul_add_div hc, Nat.div_eq_of_lt hk]; rfl⟩

/-- Sum over the storage positions = sum over the elements. -/
theorem sum_unpos (o : Ori) (r c : Nat) (f : Nat → Nat → ℝ) :
    ∑ t ∈ Finset.range (r * c), f (Dense.unpos o r c t).1 (Dense.unpos o r c t).2
      = ∑ i ∈ Finset.range r, ∑ j ∈ Finset.range c, f i j := by
  cases o with
  | row =>
    rw [sum_range_mul']
    refine Finset.sum_congr rfl fun q hq => Finset.sum_congr rfl fun k hk => ?_
    rw [unpos_add_row (Finset.mem_range.mp hk)]
  | col =>
    rw [Nat.mul_comm, sum_range_mul', Finset.sum_comm]
    rw [Finset.sum_comm]
    rw [Finset.sum_comm (s := Finset.range r)]
    refine Finset.sum_congr rfl fun q hq => Finset.sum_congr rfl fun k hk => ?_
    rw [unpos_add_col (Finset.mem_range.mp hk)]

theorem unpos_surj (o : Ori) {r c i j : Nat} (hi : i < r) (hj : j < c) : ∃ t, t < r * c ∧ Dense.unpos o r c t = (i, j) := by
  cases o with
  | row =>
    refine ⟨i * c + j, ?_, unpos_add_row hj⟩
    have : (i + 1) * c ≤ r * c := Nat.mul_le_mul_right _ hi
    nlinarith
  | col =>
    refine ⟨j * r + i, ?_, unpos_add_col hi⟩
    have : (j + 1) * r ≤ c * r := Nat.mul_le_mul_right _ hj
    nlinarith

theorem unpos_lt (o : Ori) {r c t : Nat} (h : t < r * c) : (Dense.unpos o r c t).1 < r ∧ (Dense.unpos o r c t).2 < c := by
  have hr : 0 < r := by rcases Nat.eq_zero_or_pos r with h0 | h0 <;> simp_all
  have hc : 0 < c := by rcases Nat.eq_zero_or_pos c with h0 | h0 <;> simp_all
  cases o with
  | row => exact ⟨Nat.div_lt_of_lt_mul (by rw [Nat.mul_comm]; exact h), Nat.mod_lt _ hc⟩
  | col => exact ⟨Nat.mod_lt _ hr, Nat.div_lt_of_lt_mul h⟩

theorem Dense.Is.data_eq {A : Dense R} {r c : Nat} {f : Nat → Nat → R} (h : A.Is r c f) :
    A.data = ((List.range (r * c)).map (fun t => f (Dense.unpos A.ori r c t).1 (Dense.unpos A.ori r c t).2)).map some := by
  apply List.ext_getElem?
  intro t
  by_cases ht : t < r * c
  · rw [Buf.read_ok.1 (h.raw ht)]
    simp [ht]
  · rw [List.getElem?_eq_none (by rw [h.alloc]; omega), List.getElem?_eq_none (by simp; omega)]

theorem list_sum_range (F : Nat → ℝ) (n : Nat) : ((List.range n).map F).sum = ∑ t ∈ Finset.range n, F t := by
  induction n with
  | zero => simp
  | succ n ih => rw [List.range_succ, List.map_append, List.sum_append, ih, Finset.sum_range_succ]; simp

theorem Dense.Is.covers {A : Dense ℝ} {r c : Nat} {f : Nat → Nat → ℝ} (h : A.Is r c f) :
    ∃ l, A.data = l.map some ∧ Covers l r c f := by
  refine ⟨_, h.data_eq, ⟨?_, ?_, ?_⟩⟩
  · intro g _
    rw [List.map_map, list_sum_range]
    exact sum_unpos A.ori r c (fun i j => g (f i j))
  · intro x hx
    obtain ⟨t, ht, rfl⟩ := List.mem_map.1 hx
    have := unpos_lt A.ori (List.mem_range.1 ht)
    exact ⟨_, _, this.1, this.2, rfl⟩
  · intro i j hi hj
    obtain ⟨t, ht, e⟩ := unpos_surj A.ori hi hj
    exact .inr (List.mem_map.2 ⟨t, List.mem_range.2 ht, by rw [e]⟩)

theorem run_sum_g (g : ℝ → ℝ) (g0 : g 0 = 0) {run : List (Nat × ℝ)} {K : Nat}
    (hs : run.Pairwise (fun a b => a.1 < b.1)) (hb : ∀ e ∈ run, e.1 < K) :
    (run.map (fun e => g e.2)).sum = ∑ l ∈ Finset.range K, g (entryAt run l) := by
  induction run with
  | nil => simp [entryAt_nil, g0]
  | cons e run ih =>
    rw [List.map_cons, List.sum_cons, ih (List.pairwise_cons.mp hs).2 (fun a ha => hb a (by simp [ha]))]
    have hz : entryAt run e.1 = 0 := entryAt_not_mem run _ (fun a ha => by
      have := (List.pairwise_cons.mp hs).1 a ha; omega)
    have : ∀ l, g (entryAt (e :: run) l) = (if e.1 = l then g e.2 else 0) + g (entryAt run l) := by
      intro l
      rw [entryAt_cons]
      by_cases hl : e.1 = l
      · subst hl; simp [hz, g0]
      · simp [hl]
    simp only [this]
    rw [Finset.sum_add_distrib, Finset.sum_ite_eq, if_pos (Finset.mem_range.mpr (hb e (by simp)))]

theorem entryAt_mem [Zero R] (run : List (Nat × R)) (k : Nat) : entryAt run k = 0 ∨ ∃ e ∈ run, e.1 = k ∧ entryAt run k = e.2 := by
  unfold entryAt
  cases h : run.find? (fun e => e.1 == k) with
  | none => exact .inl rfl
  | some e =>
    refine .inr ⟨e, List.mem_of_find?_eq_some h, ?_, rfl⟩
    simpa using List.find?_some h

theorem Sparse.Valid.value_eq {S : Sparse R} {r c : Nat} {L : List (List (Nat × R))} (h : S.Valid r c L)
    (ht : S.value.length = L.flatten.length) : S.value = (L.flatten.map Prod.snd).map some := by
  apply List.ext_getElem?
  intro t
  by_cases htl : t < L.flatten.length
  · rw [(h.cells t _ (List.getElem?_eq_getElem htl)).2, List.getElem?_map, List.getElem?_map, List.getElem?_eq_getElem htl]
    rfl
  · rw [List.getElem?_eq_none (by omega), List.getElem?_eq_none (by rw [List.length_map, List.length_map]; omega)]

theorem flatten_map_sum (L : List (List (Nat × ℝ))) (g : ℝ → ℝ) :
    (L.flatten.map (fun e => g e.2)).sum = ∑ q ∈ Finset.range L.length, ((L.getD q []).map (fun e => g e.2)).sum := by
  induction L using List.reverseRecOn with
  | nil => simp
  | append_singleton L run ih =>
    rw [List.flatten_append, List.map_append, List.sum_append, ih, List.length_append, List.length_singleton, Finset.sum_range_succ]
    congr 1
    · refine Finset.sum_congr rfl fun q hq => ?_
      rw [List.getD_eq_getElem?_getD, List.getD_eq_getElem?_getD, List.getElem?_append_left (Finset.mem_range.1 hq)]
    · simp [List.getD_eq_getElem?_getD]

theorem Sparse.covers {S : Sparse ℝ} {r c : Nat} {f : Nat → Nat → ℝ} {L : List (List (Nat × ℝ))} (h : S.Valid r c L)
    (ht : S.value.length = L.flatten.length) (ho : S.ori = .col)
    (hf : ∀ i j, i < r → j < c → f i j = entryAt (L.getD j []) i) :
    ∃ l, S.value = l.map some ∧ Covers l r c f := by
  have hlen : L.length = c := by rw [h.runs, ho]; rfl
  have hget : ∀ j, j < c → L.getD j [] ∈ L := by
    intro j hj
    rw [List.getD_eq_getElem?_getD, List.getElem?_eq_getElem (by omega)]
    simp
  refine ⟨_, h.value_eq ht, ⟨?_, ?_, ?_⟩⟩
  · intro g g0
    rw [List.map_map, show g ∘ Prod.snd = (fun e : Nat × ℝ => g e.2) from rfl, flatten_map_sum, hlen, Finset.sum_comm]
    refine Finset.sum_congr rfl fun j hj => ?_
    have hj := Finset.mem_range.1 hj
    have hb := h.bound _ (hget j hj)
    rw [ho] at hb
    rw [run_sum_g g g0 (K := r) (h.sorted _ (hget j hj)) hb]
    refine Finset.sum_congr rfl fun i hi => ?_
    rw [hf i j (Finset.mem_range.1 hi) hj]
  · intro x hx
    obtain ⟨e, he, rfl⟩ := List.mem_map.1 hx
    obtain ⟨run, hrun, he⟩ := List.mem_flatten.1 he
    obtain ⟨j, hj, rfl⟩ := List.mem_iff_getElem.1 hrun
    have hb := h.bound _ hrun e he
    rw [ho] at hb
    refine ⟨e.1, j, hb, by omega, ?_⟩
    rw [hf e.1 j hb (by omega), List.getD_eq_getElem?_getD, List.getElem?_eq_getElem hj]
    exact entryAt_of_mem (h.sorted _ hrun) he
  · intro i j hi hj
    rw [hf i j hi hj]
    rcases entryAt_mem (L.getD j []) i with h0 | ⟨e, he, _, h1⟩
    · exact .inl h0
    · refine .inr ?_
      rw [h1]
      exact List.mem_map.2 ⟨e, List.mem_flatten.2 ⟨_, hget j hj, he⟩, rfl⟩

theorem foldl_add (g : ℝ → ℝ) (l : List ℝ) (s : ℝ) : l.foldl (fun s x => s + g x) s = s + (l.map g).sum := by
  induction l generalizing s with
  | nil => simp
  | cons x l ih => rw [List.foldl_cons, ih, List.map_cons, List.sum_cons]; ring

theorem foldl_max_ge (l : List ℝ) (s : ℝ) : s ≤ l.foldl (fun s x => max s |x|) s := by
  induction l generalizing s with
  | nil => simp
  | cons x l ih => exact le_trans (le_max_left _ _) (ih _)

theorem foldl_max_bound (l : List ℝ) (s : ℝ) : ∀ x ∈ l, |x| ≤ l.foldl (fun s x => max s |x|) s := by
  induction l generalizing s with
  | nil => simp
  | cons a l ih =>
    intro x hx
    rcases List.mem_cons.1 hx with rfl | h
    · exact le_trans (le_max_right s |x|) (foldl_max_ge l _)
    · exact ih _ x h

theorem foldl_max_attained (l : List ℝ) (s : ℝ) : l.foldl (fun s x => max s |x|) s = s ∨ ∃ x ∈ l, l.foldl (fun s x => max s |x|) s = |x| := by
  induction l generalizing s with
  | nil => simp
  | cons a l ih =>
    rw [List.foldl_cons]
    rcases ih (max s |a|) with h | ⟨x, hx, h⟩
    · rw [h]
      rcases max_choice s |a| with h' | h'
      · exact .inl h'
      · exact .inr ⟨a, by simp, h'⟩
    · exact .inr ⟨x, by simp [hx], h⟩

theorem Covers.norm {l : List ℝ} {r c : Nat} {f : Nat → Nat → ℝ} (h : Covers l r c f) (k : NormKind) :
    ∃ x, normBuf k (l.map some) = .ok x ∧ IsNorm k r c f x := by
  cases k with
  | one =>
    refine ⟨_, foldBuf_map _ _ _, ?_⟩
    rw [foldl_add (fun x => |x|), zero_add]
    exact h.sums (fun x => |x|) (by simp)
  | two =>
    have e : normBuf .two (l.map some) = .ok (Real.sqrt (l.foldl (fun s x => s + x ^ 2) 0)) := by
      simp only [normBuf]
      rw [foldBuf_map]; rfl
    refine ⟨_, e, Real.sqrt_nonneg _, ?_⟩
    have hs := h.sums (fun x => x ^ 2) (by simp)
    rw [foldl_add (fun x => x ^ 2), zero_add, hs]
    exact Real.sq_sqrt (Finset.sum_nonneg fun i _ => Finset.sum_nonneg fun j _ => sq_nonneg _)
  | max =>
    refine ⟨_, foldBuf_map _ _ _, ?_, ?_⟩
    · intro i j hi hj
      rcases h.cov i j hi hj with h0 | h1
      · rw [h0, abs_zero]; exact foldl_max_ge l 0
      · exact foldl_max_bound l 0 _ h1
    · rcases foldl_max_attained l 0 with h0 | ⟨x, hx, h1⟩
      · by_cases hz : r * c = 0
        · exact .inl ⟨hz, h0⟩
        · have hr : 0 < r := Nat.pos_of_ne_zero fun e => hz (by simp [e])
          have hc : 0 < c := Nat.pos_of_ne_zero fun e => hz (by simp [e])
          refine .inr ⟨0, 0, hr, hc, ?_⟩
          rw [h0]
          rcases h.cov 0 0 hr hc with h2 | h2
          · rw [h2, abs_zero]
          · have := foldl_max_bound l 0 _ h2
            rw [h0] at this
            exact le_antisymm this (abs_nonneg _)
      · obtain ⟨i, j, hi, hj, e⟩ := h.mem x hx
        exact .inr ⟨i, j, hi, hj, by rw [h1, e]⟩

end BB
