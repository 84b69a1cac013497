import Verif.Props.Universal
import Verif.Props.Spare
import Verif.Props.Norm
import Verif.Lemmas.NormFp
import Verif.Props.DynQuery

/-!
# Norms of sums of sparse matrices (C35), exactly
-/

namespace BB

theorem foldBuf_init {R V : Type} (step : V → R → V) (b : Buf R) (s : V) (h : ∃ p : Nat, b[p]? = some none) : foldBuf step b s = .error .ub := by
  apply OrUb.false
  unfold foldBuf
  rw [ptrLoop_eq _ b.length 0 _ 1 _ (by omega) (by omega)]
  refine (OrUb.loop (fun p _ => ∀ q, q < p → b[q]? ≠ some none) (fun q h => by omega) ?_).mono ?_
  · intro p n hp hI
    simp only [Nat.zero_add, Nat.mul_one]
    by_cases h : b[p]? = some none
    · right
      have : b.read p = .error .ub := by unfold Buf.read; rw [h]
      rw [this]; rfl
    · refine (Buf.orUb_read _ _).next fun x => .inl ⟨_, rfl, fun q hq => ?_⟩
      by_cases hqp : q = p
      · rw [hqp]; exact h
      · exact hI q (by omega)
  · intro n hn
    obtain ⟨p, hp⟩ := h
    exact hn p (List.getElem?_eq_some_iff.mp hp).1 hp

theorem normBuf_init (k : NormKind) (b : Buf ℝ) (h : ∃ p : Nat, b[p]? = some none) : normBuf k b = .error .ub := by
  cases k <;> simp only [normBuf, foldBuf_init _ _ _ h]; rfl


theorem storedAt_none {R : Type} {run : List (Nat × R)} {k : Nat} : storedAt run k = none ↔ ∀ e ∈ run, e.1 ≠ k := by
  simp [storedAt, List.find?_eq_none]

theorem run_full {R : Type} {run : List (Nat × R)} {K : Nat} (h : ∀ k, k < K → storedAt run k ≠ none) : K ≤ run.length := by
  have hn : (List.range K).Nodup := List.nodup_range
  have := hn.subperm (l₂ := run.map (·.1)) (by
    intro x hx
    have hk := h x (List.mem_range.1 hx)
    rw [Ne, storedAt_none] at hk
    by_contra hc
    exact hk fun e he hek => hc (List.mem_map.2 ⟨e, he, hek⟩))
  simpa using this.length_le

theorem run_notfull {R : Type} {run : List (Nat × R)} {K k : Nat} (hs : run.Pairwise (fun a b => a.1 < b.1)) (hb : ∀ e ∈ run, e.1 < K)
    (hk : k < K) (h : storedAt run k = none) : run.length < K := by
  rw [storedAt_none] at h
  have hn : (k :: run.map (·.1)).Nodup := by
    rw [List.nodup_cons]
    constructor
    · intro hm
      obtain ⟨e, he, hek⟩ := List.mem_map.1 hm
      exact h e he hek
    · rw [List.Nodup, List.pairwise_map]
      exact hs.imp (fun h => Nat.ne_of_lt h)
  have := hn.subperm (l₂ := List.range K) (by
    intro x hx
    rcases List.mem_cons.1 hx with rfl | hx
    · exact List.mem_range.2 hk
    · obtain ⟨e, he, rfl⟩ := List.mem_map.1 hx
      exact List.mem_range.2 (hb e he))
  have := this.length_le
  simp at this
  omega

theorem flatten_length_ge {R : Type} (L : List (List (Nat × R))) (K : Nat) (h : ∀ run ∈ L, K ≤ run.length) : K * L.length ≤ L.flatten.length := by
  induction L with
  | nil => simp
  | cons run L ih =>
    have h1 := h run (by simp)
    have h2 := ih (fun a ha => h a (by simp [ha]))
    rw [List.flatten_cons, List.length_append, List.length_cons, Nat.mul_succ]
    omega

theorem flatten_length_lt {R : Type} (L : List (List (Nat × R))) (K : Nat) (h : ∀ run ∈ L, run.length ≤ K) (hx : ∃ run ∈ L, run.length < K) :
    L.flatten.length < K * L.length := by
  induction L with
  | nil => simp at hx
  | cons run L ih =>
    have h1 := h run (by simp)
    have h2 := flatten_length L K (fun a ha => h a (by simp [ha]))
    rw [List.flatten_cons, List.length_append, List.length_cons, Nat.mul_succ]
    obtain ⟨x, hx, hlt⟩ := hx
    rcases List.mem_cons.1 hx with rfl | hx
    · omega
    · have := ih (fun a ha => h a (by simp [ha])) ⟨x, hx, hlt⟩
      omega

/-- C35, sums of sparse matrices, exactly: every norm of a freshly computed sum of two sparse matrices is right if one of the two
stores an element at every position, and reads uninitialised memory if not. -/
theorem C35_sparse_sum_exact (k : NormKind) (A B : Sparse ℝ) (r c : Nat) (f g : Nat → Nat → ℝ) (LA LB : List (List (Nat × ℝ)))
    (hA : A.Valid r c LA) (hB : B.Valid r c LB) (hf : ∀ i j, i < r → j < c → f i j = entryAt (LA.getD j []) i)
    (hg : ∀ i j, i < r → j < c → g i j = entryAt (LB.getD j []) i) (hAo : A.ori = .col) (hBo : B.ori = .col) (hrc : 0 < r * c) :
    ∃ D, SMat.binop (· + ·) id (.sparse A) (.sparse B) = .ok D ∧
      ((∀ i j, i < r → j < c → storedAt (LA.getD j []) i ≠ none ∨ storedAt (LB.getD j []) i ≠ none) →
        ∃ x, D.norm k = .ok x ∧ IsNorm k r c (fun i j => f i j + g i j) x) ∧
      ((∃ i j, i < r ∧ j < c ∧ storedAt (LA.getD j []) i = none ∧ storedAt (LB.getD j []) i = none) → D.norm k = .error .ub) := by
  have hfA : A.Is r c f := ⟨LA, hA, fun i j hi hj => by rw [hAo]; exact hf i j hi hj⟩
  have hgB : B.Is r c g := ⟨LB, hB, fun i j hi hj => by rw [hBo]; exact hg i j hi hj⟩
  obtain ⟨D, LD, e, h1, h2, h3, h4⟩ := C64_sum_exact (· + ·) id A B (Sparse.empty .col) r c LA LB hA hB (hBo.trans hAo.symm) hAo.symm (.inl hAo)
    (by show 0 ≠ r * c; omega) rfl
  obtain ⟨D', e', ho, -, hD⟩ := C17_sparse_sum (· + ·) id (fun x => add_zero x) (fun y => zero_add y) A B (Sparse.empty .col) r c f g hfA hgB
    (hBo.trans hAo.symm) hAo.symm (.inl hAo)
  rw [e] at e'
  cases e'
  have hDo : D.ori = .col := ho.trans hAo
  have hlen : LD.length = c := by rw [h2.runs, hDo]; rfl
  have hb : ∀ run ∈ LD, ∀ e ∈ run, e.1 < r := by
    intro run hr e he
    have := h2.bound run hr e he
    rwa [hDo] at this
  have hget : ∀ run ∈ LD, ∃ q, q < c ∧ LD.getD q [] = run := by
    intro run hr
    obtain ⟨q, hq, rfl⟩ := List.mem_iff_getElem.mp hr
    exact ⟨q, hlen ▸ hq, by simp [List.getD_eq_getElem?_getD, hq]⟩
  have hle : ∀ run ∈ LD, run.length ≤ r := fun run hr => run_length (h2.sorted run hr) (hb run hr)
  refine ⟨.sparse D, by simp only [SMat.binop, e]; rfl, ?_, ?_⟩
  · intro hfull
    have : r * c ≤ LD.flatten.length := by
      rw [← hlen]
      refine flatten_length_ge LD r fun run hr => ?_
      obtain ⟨q, hq, rfl⟩ := hget run hr
      refine run_full fun i hi => ?_
      rw [Ne, h3 q i hq, not_and_or]
      exact hfull i q hi hq
    have hle' := flatten_length LD r hle
    rw [hlen] at hle'
    have ht : D.Tight := h2.tight.2 (by rw [h1]; omega)
    exact C35_norm_partial k (.one (.sparse D)) r c _ ⟨hD, hDo⟩ ht
  · rintro ⟨i, j, hi, hj, a1, a2⟩
    have hm : LD.getD j [] ∈ LD := by
      rw [List.getD_eq_getElem?_getD, List.getElem?_eq_getElem (by omega)]
      exact List.getElem_mem _
    have hlt := flatten_length_lt LD r hle ⟨_, hm, run_notfull (h2.sorted _ hm) (hb _ hm) hi ((h3 j i hj).2 ⟨a1, a2⟩)⟩
    rw [hlen] at hlt
    exact normBuf_init k _ ⟨_, (h4 _ (Nat.le_refl _) hlt).1⟩

/-- C35, two-part matrices of two sparse parts, exactly: the 2-norm and the maximum norm are right if one of the two parts stores an
element at every position, and read uninitialised memory if not; the 1-norm looks at the first part only. -/
theorem C35_two_sparse_exact (k : NormKind) (A B : Sparse ℝ) (r c : Nat) (f g : Nat → Nat → ℝ) (LA LB : List (List (Nat × ℝ)))
    (hA : A.Valid r c LA) (hB : B.Valid r c LB) (hf : ∀ i j, i < r → j < c → f i j = entryAt (LA.getD j []) i)
    (hg : ∀ i j, i < r → j < c → g i j = entryAt (LB.getD j []) i) (hAo : A.ori = .col) (hBo : B.ori = .col) (hrc : 0 < r * c) :
    (k ≠ .one → ((∀ i j, i < r → j < c → storedAt (LA.getD j []) i ≠ none ∨ storedAt (LB.getD j []) i ≠ none) →
        ∃ x, (Mat.two (.sparse A) (.sparse B)).norm k = .ok x ∧ IsNorm k r c (fun i j => f i j + g i j) x) ∧
      ((∃ i j, i < r ∧ j < c ∧ storedAt (LA.getD j []) i = none ∧ storedAt (LB.getD j []) i = none) →
        (Mat.two (.sparse A) (.sparse B)).norm k = .error .ub)) ∧
    (k = .one → ((∀ i j, i < r → j < c → storedAt (LA.getD j []) i ≠ none) →
        ∃ x, (Mat.two (.sparse A) (.sparse B)).norm k = .ok x ∧ IsNorm k r c (fun i j => f i j + f i j) x) ∧
      ((∃ i j, i < r ∧ j < c ∧ storedAt (LA.getD j []) i = none) → (Mat.two (.sparse A) (.sparse B)).norm k = .error .ub)) := by
  constructor
  · intro hk
    obtain ⟨D, e, h1, h2⟩ := C35_sparse_sum_exact k A B r c f g LA LB hA hB hf hg hAo hBo hrc
    have eq : (Mat.two (.sparse A) (.sparse B)).norm k = D.norm k := by
      cases k with
      | one => exact absurd rfl hk
      | two => simp only [Mat.norm, e, bind_ok']
      | max => simp only [Mat.norm, e, bind_ok']
    rw [eq]
    exact ⟨h1, h2⟩
  · rintro rfl
    obtain ⟨D, e, h1, h2⟩ := C35_sparse_sum_exact .one A A r c f f LA LA hA hA hf hf hAo hAo hrc
    have eq : (Mat.two (.sparse A) (.sparse B)).norm .one = D.norm .one := by simp only [Mat.norm, e, bind_ok']
    rw [eq]
    exact ⟨fun h => h1 fun i j hi hj => .inl (h i j hi hj), fun ⟨i, j, hi, hj, h⟩ => h2 ⟨i, j, hi, hj, h, h⟩⟩

/-- The hypotheses can be met: `exNormS` stores an element at (1,1) only. -/
example : exNormS.Valid 2 2 [[], [(1, 3)]] ∧ exNormS.ori = .col ∧ storedAt (([[], [(1, (3:ℝ))]] : List (List (Nat × ℝ))).getD 0 []) 0 = none :=
  ⟨exNormS_valid, rfl, rfl⟩

end BB

namespace BB.Dyn

/-- C112, for all operands: the norm of a variable that was just assigned the sum of two sparse matrices is right if one of the two
stores an element at every position; if not, asking for it reads uninitialised memory. -/
theorem C112_norm_of_any_sparse_sum (b : Build) (s : QState ℝ ℝ) (x y z : Nat) (A B : Sparse ℝ) (r c : Nat) (f g : Nat → Nat → ℝ)
    (LA LB : List (List (Nat × ℝ))) (hs : s.norms.length ≤ s.st.heap.length) (hy : s.st.at y = some (.one (.sparse A)))
    (hz : s.st.at z = some (.one (.sparse B))) (hA : A.Valid r c LA) (hB : B.Valid r c LB)
    (hf : ∀ i j, i < r → j < c → f i j = entryAt (LA.getD j []) i) (hg : ∀ i j, i < r → j < c → g i j = entryAt (LB.getD j []) i)
    (hAo : A.ori = .col) (hBo : B.ori = .col) (hrc : 0 < r * c) :
    ((∀ i j, i < r → j < c → storedAt (LA.getD j []) i ≠ none ∨ storedAt (LB.getD j []) i ≠ none) →
      ∃ s' v, qexec (nrm b) s [.stmt (.add x y z), .norm x] = .ok (s', [.nothing, .num v]) ∧ IsNorm .two r c (fun i j => f i j + g i j) v) ∧
    ((∃ i j, i < r ∧ j < c ∧ storedAt (LA.getD j []) i = none ∧ storedAt (LB.getD j []) i = none) →
      qexec (nrm b) s [.stmt (.add x y z), .norm x] = .error .ub) := by
  have key : ∀ v (N : Mat ℝ), s.st.at v = some N → ∃ l, s.st.deref v = .ok (l, N) := by
    intro v N h
    unfold State.at at h
    unfold State.deref
    cases hv : s.st.vars v with
    | none => rw [hv] at h; cases h
    | some l =>
      rw [hv] at h
      have h' : s.st.heap[l]? = some N := h
      exact ⟨l, by simp only [h']⟩
  obtain ⟨l1, e1⟩ := key y _ hy
  obtain ⟨l2, e2⟩ := key z _ hz
  obtain ⟨D, eD, h1, h2⟩ := C35_sparse_sum_exact .two A B r c f g LA LB hA hB hf hg hAo hBo hrc
  have e3 : Mat.add (· + ·) (.one (.sparse A)) (.one (.sparse B)) = .ok D := eD
  have est : step s.st (.add x y z) = .ok (s.st.new x (.one D)) := by
    simp only [step, e1, e2, bind_ok', e3]
    rfl
  have hd : (s.st.new x (.one D)).deref x = .ok (s.st.heap.length, .one D) := by
    simp [State.deref, State.new]
  have hn : (s.norms ++ List.replicate ((s.st.new x (.one D)).heap.length - s.norms.length) (none : Option ℝ))[s.st.heap.length]?.join = none := by
    rw [List.getElem?_append_right hs, List.getElem?_replicate]
    split <;> rfl
  have hq : qexec (nrm b) s [.stmt (.add x y z), .norm x] = (D.norm .two >>= fun v =>
      .ok (if remembers (.one D) then ⟨s.st.new x (.one D), (s.norms ++ List.replicate ((s.st.new x (.one D)).heap.length - s.norms.length) none).set s.st.heap.length (some v)⟩
        else ⟨s.st.new x (.one D), s.norms ++ List.replicate ((s.st.new x (.one D)).heap.length - s.norms.length) none⟩, [.nothing, .num v])) := by
    simp only [qexec, qstep, est, bind_ok', pure_ok', QState.getNorm, hd, hn]
    rw [show nrm b (.one D) = D.norm .two from rfl]
    cases D.norm .two with
    | error e => rfl
    | ok v =>
      simp only [bind_ok']
      split <;> rfl
  rw [hq]
  constructor
  · intro h
    obtain ⟨v, ev, hv⟩ := h1 h
    exact ⟨_, v, by rw [ev, bind_ok'], hv⟩
  · intro h
    rw [h2 h]; rfl

/-- The hypotheses can be met: a program that constructs `exNormS`. -/
example : ∃ s : QState ℝ ℝ, s.norms.length ≤ s.st.heap.length ∧ s.st.at 0 = some (.one (.sparse exNormS)) :=
  ⟨⟨State.init.new 0 (.one (.sparse exNormS)), []⟩, Nat.zero_le _, rfl⟩

end BB.Dyn
