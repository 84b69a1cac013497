import Verif.Lemmas.SparseTrans

/-! Auxiliary lemmas: sums and products with sparse operands. -/

namespace BB

variable {R : Type}

theorem Sat.while {σ : Type} {fuel : Nat} {c : σ → Bool} {f : σ → Res σ} {s : σ} (I : σ → Prop) (μ : σ → Nat)
    (h0 : I s) (hμ : μ s ≤ fuel)
    (hs : ∀ s, I s → c s = true → Sat (f s) (fun s' => I s' ∧ μ s' < μ s)) :
    Sat (whileN fuel c f s) (fun s' => I s' ∧ c s' = false) := by
  induction fuel generalizing s with
  | zero =>
    unfold whileN
    by_cases hc : c s = true
    · obtain ⟨s', _, _, h⟩ := hs s h0 hc
      omega
    · rw [if_neg hc]; exact Sat.ok ⟨h0, by simpa using hc⟩
  | succ fuel ih =>
    unfold whileN
    by_cases hc : c s = true
    · rw [if_pos hc]
      obtain ⟨s', e, h1, h2⟩ := hs s h0 hc
      rw [e]
      exact ih h1 (by omega)
    · rw [if_neg hc]; exact Sat.ok ⟨h0, by simpa using hc⟩

namespace Sparse

/-- Room for one more entry when a sorted bounded run is emitted into r*c cells. -/
theorem emit_room {L : List (List (Nat × R))} {cur : List (Nat × R)} {M N : Nat} (k : Nat) (x : R)
    (hL : ∀ run ∈ L, run.Pairwise (fun a b => a.1 < b.1) ∧ ∀ e ∈ run, e.1 < M) (hlen : L.length < N)
    (hs : cur.Pairwise (fun a b => a.1 < b.1)) (hk : k < M) (hlt : ∀ e ∈ cur, e.1 < k) :
    (L.flatten ++ cur).length < N * M := by
  have h1 := flatten_length_le (L := L) (n := M) (fun run hr => sorted_length_le (hL run hr).1 (hL run hr).2)
  have h2 : (cur ++ [(k, x)]).length ≤ M := by
    apply sorted_length_le
    · rw [List.pairwise_append]
      refine ⟨hs, by simp, ?_⟩
      intro a ha b hb
      simp only [List.mem_singleton] at hb
      subst hb
      exact hlt a ha
    · intro e he
      rcases List.mem_append.mp he with he | he
      · have := hlt e he; omega
      · simp only [List.mem_singleton] at he; subst he; exact hk
  have h3 : (L.length + 1) * M ≤ N * M := Nat.mul_le_mul_right M hlen
  have h4 : (L.length + 1) * M = L.length * M + M := by ring
  rw [List.length_append] at *
  simp only [List.length_singleton] at h2
  omega

/-- Progress of the merge of runs `ra` and `rb`: prefixes `pA`, `pB` are consumed, `cur` is emitted. -/
structure MergeInv (op : R → R → R) (un : R → R) (M : Nat) (ra rb pA sA pB sB cur : List (Nat × R)) : Prop where
  ea : ra = pA ++ sA
  eb : rb = pB ++ sB
  sep : ∀ s ∈ sA ++ sB, ∀ p ∈ pA ++ pB ++ cur, p.1 < s.1
  sorted : cur.Pairwise (fun a b => a.1 < b.1)
  bound : ∀ e ∈ cur, e.1 < M
  val : ∀ k, storedAt cur k = joinStored op un (storedAt pA k) (storedAt pB k)

theorem pairwise_snoc {cur : List (Nat × R)} {e : Nat × R} (h : cur.Pairwise (fun a b => a.1 < b.1))
    (hlt : ∀ a ∈ cur, a.1 < e.1) : (cur ++ [e]).Pairwise (fun a b => a.1 < b.1) := by
  rw [List.pairwise_append]
  refine ⟨h, by simp, ?_⟩
  intro a ha b hb
  simp only [List.mem_singleton] at hb
  subst hb
  exact hlt a ha

theorem tail_lt {p s : List (Nat × R)} {e : Nat × R} (h : (p ++ e :: s).Pairwise (fun a b => a.1 < b.1)) :
    ∀ a ∈ s, e.1 < a.1 := by
  rw [List.pairwise_append, List.pairwise_cons] at h
  exact h.2.1.1

theorem MergeInv.takeA {op : R → R → R} {un : R → R} {M : Nat} {ra rb pA sA pB sB cur : List (Nat × R)} {a : Nat × R}
    (h : MergeInv op un M ra rb pA (a :: sA) pB sB cur)
    (hs : ra.Pairwise (fun a b => a.1 < b.1)) (hb : ∀ e ∈ ra, e.1 < M)
    (hlt : ∀ s ∈ sB, a.1 < s.1) :
    MergeInv op un M ra rb (pA ++ [a]) sA pB sB (cur ++ [a]) := by
  have hcur : ∀ p ∈ pA ++ pB ++ cur, p.1 < a.1 := h.sep a (by simp)
  have hc : ∀ e ∈ cur, e.1 < a.1 := fun e he => hcur e (by simp [he])
  have hA : ∀ e ∈ pA, e.1 < a.1 := fun e he => hcur e (by simp [he])
  have hB : ∀ e ∈ pB, e.1 ≠ a.1 := fun e he => Nat.ne_of_lt (hcur e (by simp [he]))
  have hsA : ∀ s ∈ sA, a.1 < s.1 := tail_lt (by rw [← h.ea]; exact hs)
  refine ⟨by rw [h.ea]; simp, h.eb, ?_, pairwise_snoc h.sorted hc, ?_, ?_⟩
  · intro s hs' p hp
    have has : a.1 < s.1 := by
      rcases List.mem_append.mp hs' with h1 | h1
      · exact hsA s h1
      · exact hlt s h1
    have hs'' : s ∈ a :: sA ++ sB := by simp only [List.cons_append, List.mem_cons]; exact Or.inr hs'
    by_cases hpa : p = a
    · subst hpa; exact has
    · refine h.sep s hs'' p ?_
      simp only [List.mem_append, List.mem_singleton, hpa, or_false] at hp ⊢
      exact hp
  · intro e he
    rcases List.mem_append.mp he with he | he
    · exact h.bound e he
    · simp only [List.mem_singleton] at he; subst he; exact hb e (by rw [h.ea]; simp)
  · intro k
    rw [storedAt_append cur a k hc, storedAt_append pA a k hA]
    by_cases hk : k = a.1
    · subst hk
      rw [if_pos rfl, if_pos rfl, storedAt_not_mem pB _ hB]; rfl
    · rw [if_neg hk, if_neg hk]; exact h.val k

theorem MergeInv.takeB {op : R → R → R} {un : R → R} {M : Nat} {ra rb pA sA pB sB cur : List (Nat × R)} {b : Nat × R}
    (h : MergeInv op un M ra rb pA sA pB (b :: sB) cur)
    (hs : rb.Pairwise (fun a b => a.1 < b.1)) (hb : ∀ e ∈ rb, e.1 < M)
    (hlt : ∀ s ∈ sA, b.1 < s.1) :
    MergeInv op un M ra rb pA sA (pB ++ [b]) sB (cur ++ [(b.1, un b.2)]) := by
  have hcur : ∀ p ∈ pA ++ pB ++ cur, p.1 < b.1 := h.sep b (by simp)
  have hc : ∀ e ∈ cur, e.1 < b.1 := fun e he => hcur e (by simp [he])
  have hB : ∀ e ∈ pB, e.1 < b.1 := fun e he => hcur e (by simp [he])
  have hA : ∀ e ∈ pA, e.1 ≠ b.1 := fun e he => Nat.ne_of_lt (hcur e (by simp [he]))
  have hsB : ∀ s ∈ sB, b.1 < s.1 := tail_lt (by rw [← h.eb]; exact hs)
  refine ⟨h.ea, by rw [h.eb]; simp, ?_, pairwise_snoc h.sorted hc, ?_, ?_⟩
  · intro s hs' p hp
    have has : b.1 < s.1 := by
      rcases List.mem_append.mp hs' with h1 | h1
      · exact hlt s h1
      · exact hsB s h1
    have hs'' : s ∈ sA ++ b :: sB := by
      simp only [List.mem_append, List.mem_cons] at hs' ⊢
      rcases hs' with h1 | h1
      · exact Or.inl h1
      · exact Or.inr (Or.inr h1)
    simp only [List.mem_append, List.mem_singleton] at hp
    rcases hp with (hp | hp | hp) | hp | hp
    · exact h.sep s hs'' p (by simp [hp])
    · exact h.sep s hs'' p (by simp [hp])
    · subst hp; exact has
    · exact h.sep s hs'' p (by simp [hp])
    · subst hp; exact has
  · intro e he
    rcases List.mem_append.mp he with he | he
    · exact h.bound e he
    · simp only [List.mem_singleton] at he; subst he; exact hb b (by rw [h.eb]; simp)
  · intro k
    rw [storedAt_append cur (b.1, un b.2) k hc, storedAt_append pB b k hB]
    by_cases hk : k = b.1
    · subst hk
      rw [if_pos rfl, if_pos rfl, storedAt_not_mem pA _ hA]; rfl
    · rw [if_neg hk, if_neg hk]; exact h.val k

theorem MergeInv.takeAB {op : R → R → R} {un : R → R} {M : Nat} {ra rb pA sA pB sB cur : List (Nat × R)} {a b : Nat × R}
    (h : MergeInv op un M ra rb pA (a :: sA) pB (b :: sB) cur) (heq : a.1 = b.1)
    (hsa : ra.Pairwise (fun a b => a.1 < b.1)) (hsb : rb.Pairwise (fun a b => a.1 < b.1)) (hb : ∀ e ∈ ra, e.1 < M) :
    MergeInv op un M ra rb (pA ++ [a]) sA (pB ++ [b]) sB (cur ++ [(a.1, op a.2 b.2)]) := by
  have hcur : ∀ p ∈ pA ++ pB ++ cur, p.1 < a.1 := h.sep a (by simp)
  have hc : ∀ e ∈ cur, e.1 < a.1 := fun e he => hcur e (by simp [he])
  have hA : ∀ e ∈ pA, e.1 < a.1 := fun e he => hcur e (by simp [he])
  have hB : ∀ e ∈ pB, e.1 < b.1 := fun e he => by rw [← heq]; exact hcur e (by simp [he])
  have hsA : ∀ s ∈ sA, a.1 < s.1 := tail_lt (by rw [← h.ea]; exact hsa)
  have hsB : ∀ s ∈ sB, b.1 < s.1 := tail_lt (by rw [← h.eb]; exact hsb)
  refine ⟨by rw [h.ea]; simp, by rw [h.eb]; simp, ?_, pairwise_snoc h.sorted hc, ?_, ?_⟩
  · intro s hs' p hp
    have has : a.1 < s.1 := by
      rcases List.mem_append.mp hs' with h1 | h1
      · exact hsA s h1
      · rw [heq]; exact hsB s h1
    have hs'' : s ∈ (a :: sA) ++ (b :: sB) := by
      simp only [List.mem_append, List.mem_cons] at hs' ⊢
      rcases hs' with h1 | h1
      · exact Or.inl (Or.inr h1)
      · exact Or.inr (Or.inr h1)
    simp only [List.mem_append, List.mem_singleton] at hp
    rcases hp with ((hp | hp) | hp | hp) | hp | hp
    · exact h.sep s hs'' p (by simp [hp])
    · subst hp; exact has
    · exact h.sep s hs'' p (by simp [hp])
    · subst hp; rw [← heq]; exact has
    · exact h.sep s hs'' p (by simp [hp])
    · subst hp; exact has
  · intro e he
    rcases List.mem_append.mp he with he | he
    · exact h.bound e he
    · simp only [List.mem_singleton] at he; subst he; exact hb a (by rw [h.ea]; simp)
  · intro k
    rw [storedAt_append cur (a.1, op a.2 b.2) k hc, storedAt_append pB b k hB, storedAt_append pA a k hA]
    by_cases hk : k = a.1
    · subst hk
      rw [if_pos rfl, if_pos rfl, if_pos heq]; rfl
    · rw [if_neg hk, if_neg hk, if_neg (by rw [← heq]; exact hk)]; exact h.val k

theorem binop_stored (op : R → R → R) (un : R → R)
    {A B : Sparse R} (C : Sparse R) {r c : Nat}
    {LA LB : List (List (Nat × R))} (hA : A.Valid r c LA) (hB : B.Valid r c LB) (hBo : B.ori = A.ori) (hCo : C.ori = A.ori)
    (hN : A.ori.minorIx r c = c) :
    Sat (binop op un A B C) (fun D => D.ori = A.ori ∧ D.nnz = r * c ∧ ∃ LD, D.Valid r c LD ∧
      ∀ q k, q < c → storedAt (LD.getD q []) k = joinStored op un (storedAt (LA.getD q []) k) (storedAt (LB.getD q []) k)) := by
  have hlA : LA.length = c := by rw [hA.runs, hN]
  have hlB : LB.length = c := by rw [hB.runs, hBo, hN]
  have hMN : c * A.ori.majorIx r c = r * c := by
    rw [← hN]; cases A.ori <;> simp [Ori.minorIx, Ori.majorIx, Nat.mul_comm]
  have hMB : B.ori.majorIx r c = A.ori.majorIx r c := by rw [hBo]
  unfold binop
  refine Sat.assert (by simp [hA.rows, hB.rows]) (Sat.assert (by simp [hA.cols, hB.cols]) ?_)
  simp only [hA.rows, hA.cols]
  have start := EmitInv.start C.ori (Dim.mk' r c) (Dense.resizeBuf C.value (r*c)) (Dense.resizeBuf C.key (r*c))
    (Dense.resizeBuf C.offset (c+1)) (by simp [Dense.length_resizeBuf])
  simp only [Dense.length_resizeBuf] at start
  refine Sat.bind (EmitInv.mark start (by simp)) ?_
  intro E0 hE0
  refine Sat.bind (Sat.forRuns hA (fun q E => ∃ LD : List (List (Nat × R)), LD.length = q ∧ EmitInv (r*c) (c+1) LD [] (q+1) E ∧
    (∀ run ∈ LD, run.Pairwise (fun a b => a.1 < b.1) ∧ ∀ e ∈ run, e.1 < A.ori.majorIx r c) ∧
    ∀ q' k, q' < q → storedAt (LD.getD q' []) k = joinStored op un (storedAt (LA.getD q' []) k) (storedAt (LB.getD q' []) k))
    ⟨[], rfl, hE0, by simp, by intro q' k h; omega⟩ ?_) ?_
  · rintro q ra E hqA ⟨LD, hlen, hE, hsrt, hval⟩
    have hql := (List.getElem?_eq_some_iff.mp hqA).1
    have hqB : LB[q]? = some (LB[q]'(by omega)) := List.getElem?_eq_getElem (by omega)
    generalize LB[q]'(by omega) = rb at hqB
    have hmA : ra ∈ LA := List.mem_of_getElem? hqA
    have hmB : rb ∈ LB := List.mem_of_getElem? hqB
    have hsA := hA.sorted ra hmA
    have hsB := hB.sorted rb hmB
    have hbA := hA.bound ra hmA
    have hbB : ∀ e ∈ rb, e.1 < A.ori.majorIx r c := by rw [← hMB]; exact hB.bound rb hmB
    have hgA : LA.getD q [] = ra := by simp [List.getD, hqA]
    have hgB : LB.getD q [] = rb := by simp [List.getD, hqB]
    refine Sat.read (hA.readOff (by omega)) (Sat.read (hB.readOff (by omega))
      (Sat.read (hA.readOff (by omega)) (Sat.read (hB.readOff (by omega)) ?_)))
    rw [take_succ_flatten_length LA q ra hqA, take_succ_flatten_length LB q rb hqB]
    generalize hoa : (LA.take q).flatten.length = oa
    generalize hob : (LB.take q).flatten.length = ob
    -- the common invariant
    let Inv : MergeSt R → Prop := fun s => ∃ pA sA pB sB cur,
      MergeInv op un (A.ori.majorIx r c) ra rb pA sA pB sB cur ∧ s.pa = oa + pA.length ∧ s.pb = ob + pB.length ∧
      EmitInv (r*c) (c+1) LD cur (q+1) s.E
    let μ : MergeSt R → Nat := fun s => (oa + ra.length - s.pa) + (ob + rb.length - s.pb)
    have hfuel : ∀ s, Inv s → μ s ≤ A.key.length + B.key.length := by
      rintro s ⟨pA, sA, pB, sB, cur, hM, e1, e2, -⟩
      have l1 : ra.length = pA.length + sA.length := by rw [hM.ea]; simp
      have l2 : rb.length = pB.length + sB.length := by rw [hM.eb]; simp
      have f1 : ra.length ≤ A.key.length := by
        have := flatten_le_value hA
        have h3 := take_succ_flatten_length LA q ra hqA
        have h4 : (LA.take (q+1)).flatten.length ≤ LA.flatten.length := by
          have := congrArg (fun l => (List.flatten l).length) (List.take_append_drop (q+1) LA)
          simp only [List.flatten_append, List.length_append] at this
          omega
        rw [hA.keyLen]; omega
      have f2 : rb.length ≤ B.key.length := by
        have := flatten_le_value hB
        have h3 := take_succ_flatten_length LB q rb hqB
        have h4 : (LB.take (q+1)).flatten.length ≤ LB.flatten.length := by
          have := congrArg (fun l => (List.flatten l).length) (List.take_append_drop (q+1) LB)
          simp only [List.flatten_append, List.length_append] at this
          omega
        rw [hB.keyLen]; omega
      simp only [μ]; omega
    have room : ∀ {pA sA pB sB cur} (k : Nat) (x : R), MergeInv op un (A.ori.majorIx r c) ra rb pA sA pB sB cur →
        k < A.ori.majorIx r c → (∀ e ∈ cur, e.1 < k) → (LD.flatten ++ cur).length < r * c := by
      intro pA sA pB sB cur k x hM hk hlt
      rw [← hMN]
      exact emit_room k x hsrt (by omega) hM.sorted hk hlt
    have readA : ∀ {pA a sA}, ra = pA ++ a :: sA → A.key.read (oa + pA.length) = .ok a.1 ∧ A.value.read (oa + pA.length) = .ok a.2 := by
      intro pA a sA e
      have ht : ra[pA.length]? = some a := by rw [e]; simp
      have := hA.readKey hqA ht
      rwa [hoa] at this
    have readB : ∀ {pB b sB}, rb = pB ++ b :: sB → B.key.read (ob + pB.length) = .ok b.1 ∧ B.value.read (ob + pB.length) = .ok b.2 := by
      intro pB b sB e
      have ht : rb[pB.length]? = some b := by rw [e]; simp
      have := hB.readKey hqB ht
      rwa [hob] at this
    have stepA : ∀ {s : MergeSt R} {pA a sA pB sB cur}, MergeInv op un (A.ori.majorIx r c) ra rb pA (a :: sA) pB sB cur →
        s.pa = oa + pA.length → s.pb = ob + pB.length → EmitInv (r*c) (c+1) LD cur (q+1) s.E →
        (∀ x ∈ sB, a.1 < x.1) →
        Sat (do
          let E ← s.E.push a.1 a.2
          return ({ s with pa := s.pa + 1, E := E } : MergeSt R)) (fun s' => Inv s' ∧ μ s' < μ s) := by
      intro s pA a sA pB sB cur hM e1 e2 hE hlt
      have hc : ∀ e ∈ cur, e.1 < a.1 := fun e he => hM.sep a (by simp) e (by simp [he])
      have ham : a ∈ ra := by rw [hM.ea]; simp
      refine Sat.bind (hE.push a.1 a.2 (room a.1 a.2 hM (hbA a ham) hc)) ?_
      intro E hE
      have l1 : ra.length = pA.length + (sA.length + 1) := by rw [hM.ea]; simp
      refine Sat.pure ⟨⟨pA ++ [a], sA, pB, sB, cur ++ [a], hM.takeA hsA hbA hlt, by simp [e1]; omega, e2, hE⟩, ?_⟩
      simp only [μ]; omega
    have stepB : ∀ {s : MergeSt R} {pA b sA pB sB cur}, MergeInv op un (A.ori.majorIx r c) ra rb pA sA pB (b :: sB) cur →
        s.pa = oa + pA.length → s.pb = ob + pB.length → EmitInv (r*c) (c+1) LD cur (q+1) s.E →
        (∀ x ∈ sA, b.1 < x.1) →
        Sat (do
          let E ← s.E.push b.1 (un b.2)
          return ({ s with pb := s.pb + 1, E := E } : MergeSt R)) (fun s' => Inv s' ∧ μ s' < μ s) := by
      intro s pA b sA pB sB cur hM e1 e2 hE hlt
      have hc : ∀ e ∈ cur, e.1 < b.1 := fun e he => hM.sep b (by simp) e (by simp [he])
      have hbm : b ∈ rb := by rw [hM.eb]; simp
      refine Sat.bind (hE.push b.1 (un b.2) (room b.1 b.2 hM (hbB b hbm) hc)) ?_
      intro E hE
      have l1 : rb.length = pB.length + (sB.length + 1) := by rw [hM.eb]; simp
      refine Sat.pure ⟨⟨pA, sA, pB ++ [b], sB, cur ++ [(b.1, un b.2)], hM.takeB hsB hbB hlt, e1, by simp [e2]; omega, hE⟩, ?_⟩
      simp only [μ]; omega
    have hI0 : Inv ⟨oa, ob, E⟩ :=
      ⟨[], ra, [], rb, [], ⟨by simp, by simp, by simp, by simp, by simp, by intro k; rfl⟩, by simp, by simp, hE⟩
    -- first loop
    refine Sat.bind (Sat.while Inv μ hI0 (hfuel _ hI0) ?_) ?_
    · rintro s ⟨pA, sA, pB, sB, cur, hM, e1, e2, hE⟩ hc
      simp only [Bool.and_eq_true, bne_iff_ne, ne_eq] at hc
      cases sA with
      | nil => exfalso; apply hc.1; rw [e1, hM.ea]; simp
      | cons a sA =>
        cases sB with
        | nil => exfalso; apply hc.2; rw [e2, hM.eb]; simp
        | cons b sB =>
          obtain ⟨ka, xa⟩ := readA hM.ea
          obtain ⟨kb, xb⟩ := readB hM.eb
          rw [← e1] at ka xa
          rw [← e2] at kb xb
          have tA := tail_lt (by rw [← hM.ea]; exact hsA)
          have tB := tail_lt (by rw [← hM.eb]; exact hsB)
          refine Sat.read ka (Sat.read kb ?_)
          by_cases hab : a.1 < b.1
          · rw [if_pos hab]
            refine Sat.read xa ?_
            refine stepA hM e1 e2 hE ?_
            intro x hx
            rcases List.mem_cons.mp hx with rfl | hx
            · exact hab
            · exact Nat.lt_trans hab (tB x hx)
          · rw [if_neg hab]
            by_cases hba : b.1 < a.1
            · rw [if_pos hba]
              refine Sat.read xb ?_
              refine stepB hM e1 e2 hE ?_
              intro x hx
              rcases List.mem_cons.mp hx with rfl | hx
              · exact hba
              · exact Nat.lt_trans hba (tA x hx)
            · rw [if_neg hba]
              have heq : a.1 = b.1 := by omega
              refine Sat.read xa (Sat.read xb ?_)
              have hc : ∀ e ∈ cur, e.1 < a.1 := fun e he => hM.sep a (by simp) e (by simp [he])
              have ham : a ∈ ra := by rw [hM.ea]; simp
              refine Sat.bind (hE.push a.1 (op a.2 b.2) (room a.1 a.2 hM (hbA a ham) hc)) ?_
              intro E hE
              have l1 : ra.length = pA.length + (sA.length + 1) := by rw [hM.ea]; simp
              have l2 : rb.length = pB.length + (sB.length + 1) := by rw [hM.eb]; simp
              refine Sat.pure ⟨⟨pA ++ [a], sA, pB ++ [b], sB, cur ++ [(a.1, op a.2 b.2)],
                hM.takeAB heq hsA hsB hbA, by simp [e1]; omega, by simp [e2]; omega, hE⟩, ?_⟩
              simp only [μ]; omega
    · rintro s ⟨hI, hc⟩
      -- second loop: rest of A (then B is used up or A is)
      refine Sat.bind (Sat.while (fun s => Inv s ∧ (s.pa = oa + ra.length ∨ s.pb = ob + rb.length)) μ ⟨hI, ?_⟩ (hfuel _ hI) ?_) ?_
      · have : (s.pa != oa + ra.length && s.pb != ob + rb.length) = false := hc
        rw [Bool.and_eq_false_iff] at this
        simpa using this
      · rintro s ⟨⟨pA, sA, pB, sB, cur, hM, e1, e2, hE⟩, hor⟩ hc
        simp only [bne_iff_ne, ne_eq] at hc
        have hpb : s.pb = ob + rb.length := by
          rcases hor with h | h
          · exact absurd h hc
          · exact h
        have hsBnil : sB = [] := by
          have : rb.length = pB.length + sB.length := by rw [hM.eb]; simp
          have : sB.length = 0 := by omega
          exact List.length_eq_zero_iff.mp this
        subst hsBnil
        cases sA with
        | nil => exfalso; apply hc; rw [e1, hM.ea]; simp
        | cons a sA =>
          obtain ⟨ka, xa⟩ := readA hM.ea
          rw [← e1] at ka xa
          refine Sat.read ka (Sat.read xa ?_)
          have := stepA hM e1 e2 hE (by simp)
          refine Sat.bind (hE.push a.1 a.2 (room a.1 a.2 hM (hbA a (by rw [hM.ea]; simp))
            (fun e he => hM.sep a (by simp) e (by simp [he])))) ?_
          intro E hE
          have l1 : ra.length = pA.length + (sA.length + 1) := by rw [hM.ea]; simp
          refine Sat.pure ⟨⟨⟨pA ++ [a], sA, pB, [], cur ++ [a], hM.takeA hsA hbA (by simp), by simp [e1]; omega, e2, hE⟩,
            Or.inr hpb⟩, ?_⟩
          simp only [μ]; omega
      · rintro s ⟨⟨hI, -⟩, hc⟩
        have hpa : s.pa = oa + ra.length := by simpa using hc
        -- third loop: rest of B
        refine Sat.bind (Sat.while (fun s => Inv s ∧ s.pa = oa + ra.length) μ ⟨hI, hpa⟩ (hfuel _ hI) ?_) ?_
        · rintro s ⟨⟨pA, sA, pB, sB, cur, hM, e1, e2, hE⟩, hpa⟩ hc
          simp only [bne_iff_ne, ne_eq] at hc
          have hsAnil : sA = [] := by
            have : ra.length = pA.length + sA.length := by rw [hM.ea]; simp
            have : sA.length = 0 := by omega
            exact List.length_eq_zero_iff.mp this
          subst hsAnil
          cases sB with
          | nil => exfalso; apply hc; rw [e2, hM.eb]; simp
          | cons b sB =>
            obtain ⟨kb, xb⟩ := readB hM.eb
            rw [← e2] at kb xb
            refine Sat.read kb (Sat.read xb ?_)
            refine Sat.bind (hE.push b.1 (un b.2) (room b.1 b.2 hM (hbB b (by rw [hM.eb]; simp))
              (fun e he => hM.sep b (by simp) e (by simp [he])))) ?_
            intro E hE
            have l1 : rb.length = pB.length + (sB.length + 1) := by rw [hM.eb]; simp
            refine Sat.pure ⟨⟨⟨pA, [], pB ++ [b], sB, cur ++ [(b.1, un b.2)], hM.takeB hsB hbB (by simp), e1, by simp [e2]; omega, hE⟩,
              hpa⟩, ?_⟩
            simp only [μ]; omega
        · rintro s ⟨⟨⟨pA, sA, pB, sB, cur, hM, e1, e2, hE⟩, hpa⟩, hc⟩
          have hpb : s.pb = ob + rb.length := by simpa using hc
          have hsAnil : sA = [] := by
            have : ra.length = pA.length + sA.length := by rw [hM.ea]; simp
            have : sA.length = 0 := by omega
            exact List.length_eq_zero_iff.mp this
          have hsBnil : sB = [] := by
            have : rb.length = pB.length + sB.length := by rw [hM.eb]; simp
            have : sB.length = 0 := by omega
            exact List.length_eq_zero_iff.mp this
          subst hsAnil hsBnil
          have eA : pA = ra := by rw [hM.ea]; simp
          have eB : pB = rb := by rw [hM.eb]; simp
          subst eA eB
          have hcl := hE.close (by omega)
          have hl' : (LD ++ [cur]).length = q + 1 := by simp [hlen]
          rw [← hl'] at hcl
          refine Sat.mono (hcl.mark (by omega)) ?_
          intro E hE
          rw [hl'] at hE
          refine ⟨LD ++ [cur], hl', hE, ?_, ?_⟩
          · intro run hrun
            rcases List.mem_append.mp hrun with h | h
            · exact hsrt run h
            · simp only [List.mem_singleton] at h; subst h; exact ⟨hM.sorted, hM.bound⟩
          · intro q' k hq'
            by_cases hqq : q' = q
            · subst hqq
              have : (LD ++ [cur]).getD q' [] = cur := by simp [List.getD, hlen.symm]
              rw [this, hgA, hgB]; exact hM.val k
            · have : (LD ++ [cur]).getD q' [] = LD.getD q' [] := by
                simp only [List.getD]; rw [List.getElem?_append_left (by omega)]
              rw [this]; exact hval q' k (by omega)
  · rintro E ⟨LD, hlen, hE, hsrt, hval⟩
    rw [hlA] at hlen
    refine Sat.pure ⟨hCo, by rw [Sparse.nnz]; exact hE.vlen, LD, ?_, ?_⟩
    · rw [hlA, ← hlen] at hE
      refine hE.valid (by omega) rfl ?_ ?_ ?_
      · show LD.length = C.ori.minorIx r c
        rw [hCo, hN, hlen]
      · intro run hrun e he
        show e.1 < C.ori.majorIx r c
        rw [hCo]; exact (hsrt run hrun).2 e he
      · intro run hrun; exact (hsrt run hrun).1
    · intro q k hq
      exact hval q k (by rw [hlA]; exact hq)

theorem binop_sat [Zero R] (op : R → R → R) (un : R → R) (h0 : ∀ x, op x 0 = x) (h1 : ∀ y, op 0 y = un y)
    {A B : Sparse R} (C : Sparse R) {r c : Nat}
    {LA LB : List (List (Nat × R))} (hA : A.Valid r c LA) (hB : B.Valid r c LB) (hBo : B.ori = A.ori) (hCo : C.ori = A.ori)
    (hN : A.ori.minorIx r c = c) :
    Sat (binop op un A B C) (fun D => D.ori = A.ori ∧ D.nnz = r * c ∧ ∃ LD, D.Valid r c LD ∧
      ∀ q k, q < c → entryAt (LD.getD q []) k = op (entryAt (LA.getD q []) k) (entryAt (LB.getD q []) k)) := by
  refine Sat.mono (binop_stored op un C hA hB hBo hCo hN) ?_
  rintro D ⟨h2, h3, LD, h4, h5⟩
  refine ⟨h2, h3, LD, h4, fun q k hq => ?_⟩
  rw [entryAt_eq, entryAt_eq, entryAt_eq, h5 q k hq]
  cases storedAt (LA.getD q []) k <;> cases storedAt (LB.getD q []) k <;> simp [joinStored, h0, h1]

end Sparse
end BB
