import Verif.Props.Sparse
import Verif.Lemmas.StorageLeak
import Mathlib.Tactic.Push

/-!
# C64, exactly: which cells of a sparse matrix hold nothing

Sums and products allocate room for all elements; here: which cells they leave untouched, whatever the operands.
-/

namespace BB

variable {R : Type}

/-- If `x` returns normally, its result satisfies `P`. -/
def Holds {α : Type} (x : Res α) (P : α → Prop) : Prop := ∀ a, x = .ok a → P a

theorem Holds.pure {α : Type} {a : α} {P : α → Prop} (h : P a) : Holds (Pure.pure a : Res α) P := by
  intro b e; cases e; exact h

theorem Holds.bind {α β : Type} {x : Res α} {f : α → Res β} {P : α → Prop} {Q : β → Prop} (h : Holds x P)
    (hf : ∀ a, P a → Holds (f a) Q) : Holds (x >>= f) Q := by
  intro b e
  cases x with
  | error _ => cases e
  | ok a => exact hf a (h a rfl) b e

theorem Holds.true {α : Type} (x : Res α) : Holds x (fun _ => True) := fun _ _ => trivial

theorem Holds.next {α β : Type} {x : Res α} {f : α → Res β} {Q : β → Prop} (hf : ∀ a, Holds (f a) Q) : Holds (x >>= f) Q :=
  Holds.bind (Holds.true x) fun a _ => hf a

theorem Holds.mono {α : Type} {x : Res α} {P Q : α → Prop} (h : Holds x P) (hpq : ∀ a, P a → Q a) : Holds x Q :=
  fun a e => hpq a (h a e)

theorem Holds.loop {σ : Type} {n : Nat} {f : Nat → σ → Res σ} {s : σ} (I : Nat → σ → Prop) (h0 : I 0 s)
    (hs : ∀ i s, i < n → I i s → Holds (f i s) (I (i + 1))) : Holds (loopN n f s) (I n) := by
  induction n with
  | zero => exact Holds.pure h0
  | succ n ih =>
    rw [loopN]
    exact Holds.bind (ih fun i s hi => hs i s (by omega)) fun a ha => hs n a (by omega) ha

theorem Holds.ptr {σ : Type} {f : Nat → σ → Res σ} (I : σ → Prop) (hs : ∀ p s, I s → Holds (f p s) I) :
    ∀ (cur stop stride : Nat) (s : σ), I s → Holds (ptrLoop cur stop stride f s) I := by
  intro cur stop stride s h0
  unfold ptrLoop
  generalize stop + 1 = fuel
  induction fuel generalizing cur s with
  | zero => intro a e; cases e
  | succ fuel ih =>
    unfold ptrLoopAux
    split
    · exact Holds.pure h0
    · exact Holds.bind (hs cur s h0) fun a ha => ih (cur + stride) a ha

theorem Holds.while {σ : Type} {c : σ → Bool} {f : σ → Res σ} (I : σ → Prop) (hs : ∀ s, I s → Holds (f s) I) :
    ∀ (fuel : Nat) (s : σ), I s → Holds (whileN fuel c f s) I := by
  intro fuel
  induction fuel with
  | zero =>
    intro s h0
    unfold whileN
    split
    · intro a e; cases e
    · exact Holds.pure h0
  | succ fuel ih =>
    intro s h0
    unfold whileN
    split
    · exact Holds.bind (hs s h0) fun a ha => ih a ha
    · exact Holds.pure h0

theorem Holds.forRun {σ : Type} {S : Sparse R} {body : Nat → R → σ → Res σ} {s : σ} {q : Nat} (I : σ → Prop) (h0 : I s)
    (hs : ∀ k x s, I s → Holds (body k x s) I) : Holds (S.forRun q body s) I := by
  unfold Sparse.forRun
  refine Holds.next fun b => Holds.next fun e => ?_
  refine Holds.bind (Holds.ptr (fun t : Nat × σ => I t.2) ?_ b e 1 (b, s) h0) fun t ht => ?_
  · intro p t ht
    refine Holds.next fun k => Holds.next fun x => ?_
    exact Holds.bind (hs k x t.2 ht) fun s' hs' => Holds.pure hs'
  · obtain ⟨u, s'⟩ := t
    exact Holds.pure ht

theorem Holds.forRuns {σ : Type} {S : Sparse R} {body : Nat → σ → Res σ} {s : σ} (I : Nat → σ → Prop) (h0 : I 0 s)
    (hs : ∀ q s, I q s → Holds (body q s) (I (q + 1))) : Holds (S.forRuns body s) (fun s => 0 < S.offset.length ∧ I (S.offset.length - 1) s) := by
  unfold Sparse.forRuns
  split
  · intro a e; cases e
  · rename_i h
    rw [ptrLoop_eq _ (S.offset.length - 1) 0 _ 1 s (by omega) (by omega)]
    refine (Holds.loop I h0 fun i s _ hI => ?_).mono fun s hI => ⟨by omega, hI⟩
    rw [Nat.zero_add, Nat.mul_one]
    exact hs i s hI

/-- What emission has not written yet is as it was: values `v0`, keys `k0`. -/
structure EmitFrame (v0 : Buf R) (k0 : Buf Nat) (E : Emit R) : Prop where
  iv : E.iv = E.off
  ik : E.ik = E.off
  rest : ∀ p, E.off ≤ p → E.value[p]? = v0[p]? ∧ E.key[p]? = k0[p]?

theorem EmitFrame.push {v0 : Buf R} {k0 : Buf Nat} {E : Emit R} (h : EmitFrame v0 k0 E) (k : Nat) (x : R) :
    Holds (E.push k x) (fun E' => EmitFrame v0 k0 E' ∧ E'.io = E.io) := by
  intro E' e
  unfold Emit.push Buf.write at e
  obtain ⟨v, e1, e⟩ := Own.bind_eq_ok e
  obtain ⟨ks, e2, e⟩ := Own.bind_eq_ok e
  split at e1
  · split at e2
    · cases e1; cases e2; cases e
      refine ⟨⟨by simp [h.iv], by simp [h.ik], fun p hp => ?_⟩, rfl⟩
      simp only at hp ⊢
      rw [List.getElem?_set, List.getElem?_set, h.iv, h.ik, if_neg (by omega), if_neg (by omega)]
      exact h.rest p (by omega)
    · cases e2
  · cases e1

theorem EmitFrame.mark {v0 : Buf R} {k0 : Buf Nat} {E : Emit R} (h : EmitFrame v0 k0 E) :
    Holds E.mark (fun E' => EmitFrame v0 k0 E' ∧ E'.io = E.io + 1 ∧ E'.offset[E.io]? = some (some E'.off)) := by
  intro E' e
  unfold Emit.mark Buf.write at e
  obtain ⟨o, e1, e⟩ := Own.bind_eq_ok e
  split at e1
  · rename_i hlt
    cases e1; cases e
    exact ⟨⟨h.iv, h.ik, h.rest⟩, rfl, by simp [hlt]⟩
  · cases e1

theorem EmitFrame.start (S : Sparse R) : EmitFrame S.value S.key S.emit := ⟨rfl, rfl, fun _ _ => ⟨rfl, rfl⟩⟩

/-- A finished sparse matrix: cells behind the stored elements are as they were. -/
theorem EmitFrame.spare {S : Sparse R} {E : Emit R} {r c : Nat} {L : List (List (Nat × R))} (h : EmitFrame S.value S.key E)
    (ho : E.offset[L.length]? = some (some E.off)) (hv : (S.filled E).Valid r c L) :
    ∀ p, L.flatten.length ≤ p → (S.filled E).value[p]? = S.value[p]? ∧ (S.filled E).key[p]? = S.key[p]? := by
  have := hv.offs L.length (Nat.le_refl _)
  rw [show (S.filled E).offset = E.offset from rfl, ho, List.take_length] at this
  simp only [Option.some.injEq] at this
  intro p hp
  exact h.rest p (by omega)

/-- Sums write nothing behind the stored elements. -/
theorem Sparse.binop_spare (op : R → R → R) (un : R → R) (A B C D : Sparse R) (r c : Nat) (LA LD : List (List (Nat × R)))
    (hA : A.Valid r c LA) (e : Sparse.binop op un A B C = .ok D) (hD : D.Valid r c LD) (hl : LD.length = LA.length) :
    ∀ p, LD.flatten.length ≤ p → D.value[p]? = (Dense.resizeBuf C.value (r * c))[p]? ∧ D.key[p]? = (Dense.resizeBuf C.key (r * c))[p]? := by
  have key : Holds (Sparse.binop op un A B C) (fun D => ∃ E, D = (C.resize r c).filled E ∧
      EmitFrame (C.resize r c).value (C.resize r c).key E ∧ E.offset[LA.length]? = some (some E.off)) := by
    unfold Sparse.binop
    refine Holds.next fun _ => Holds.next fun _ => ?_
    rw [hA.rows, hA.cols]
    refine Holds.bind (EmitFrame.mark (EmitFrame.start _)) fun E ⟨h1, h2, h3⟩ => ?_
    refine Holds.bind (Holds.forRuns (fun q (E : Emit R) => EmitFrame (C.resize r c).value (C.resize r c).key E ∧ E.io = q + 1 ∧
      E.offset[q]? = some (some E.off)) ⟨h1, h2, h3⟩ ?_) ?_
    · rintro q E ⟨h1, h2, -⟩
      refine Holds.next fun pa => Holds.next fun pb => Holds.next fun ea => Holds.next fun eb => ?_
      have inv : ∀ {s : MergeSt R} {k : Nat} {x : R} {f : Emit R → MergeSt R}, (∀ E, (f E).E = E) →
          (EmitFrame (C.resize r c).value (C.resize r c).key s.E ∧ s.E.io = q + 1) →
          Holds (do let E ← s.E.push k x; Pure.pure (f E)) (fun s => EmitFrame (C.resize r c).value (C.resize r c).key s.E ∧ s.E.io = q + 1) := by
        intro s k x f hf ⟨g1, g2⟩
        refine Holds.bind (EmitFrame.push g1 k x) fun E' ⟨g3, g4⟩ => Holds.pure ?_
        rw [hf]; exact ⟨g3, g4.trans g2⟩
      refine Holds.bind (Holds.while (fun s : MergeSt R => EmitFrame (C.resize r c).value (C.resize r c).key s.E ∧ s.E.io = q + 1) ?_ _ _ ⟨h1, h2⟩) fun s hs => ?_
      · intro s hs
        refine Holds.next fun ka => Holds.next fun kb => ?_
        split
        · exact Holds.next fun x => inv (fun _ => rfl) hs
        · split
          · exact Holds.next fun x => inv (fun _ => rfl) hs
          · exact Holds.next fun x => Holds.next fun y => inv (fun _ => rfl) hs
      refine Holds.bind (Holds.while (fun s : MergeSt R => EmitFrame (C.resize r c).value (C.resize r c).key s.E ∧ s.E.io = q + 1) ?_ _ _ hs) fun s hs => ?_
      · intro s hs
        exact Holds.next fun ka => Holds.next fun x => inv (fun _ => rfl) hs
      refine Holds.bind (Holds.while (fun s : MergeSt R => EmitFrame (C.resize r c).value (C.resize r c).key s.E ∧ s.E.io = q + 1) ?_ _ _ hs) fun s hs => ?_
      · intro s hs
        exact Holds.next fun ka => Holds.next fun x => inv (fun _ => rfl) hs
      refine (EmitFrame.mark hs.1).mono fun E' ⟨g1, g2, g3⟩ => ⟨g1, by rw [g2, hs.2], by rw [← hs.2]; exact g3⟩
    · rintro E' ⟨-, g1, -, g3⟩
      rw [hA.offsLen, Nat.add_sub_cancel] at g3
      exact Holds.pure ⟨E', rfl, g1, g3⟩
  obtain ⟨E, rfl, h1, h2⟩ := key D e
  rw [← hl] at h2
  exact h1.spare h2 hD

/-- Products write nothing behind the stored elements. -/
theorem Sparse.mulSS_spare [Zero R] [Add R] [Mul R] [DecidableEq R] (A B C D : Sparse R) (m k n : Nat) (LA LB LD : List (List (Nat × R)))
    (hA : A.Valid m k LA) (hB : B.Valid k n LB) (e : Sparse.mulSS A B C = .ok D) (hD : D.Valid m n LD) (hl : LD.length = LB.length) :
    ∀ p, LD.flatten.length ≤ p → D.value[p]? = (Dense.resizeBuf C.value (m * n))[p]? ∧ D.key[p]? = (Dense.resizeBuf C.key (m * n))[p]? := by
  have key : Holds (Sparse.mulSS A B C) (fun D => ∃ E, D = (C.resize m n).filled E ∧
      EmitFrame (C.resize m n).value (C.resize m n).key E ∧ E.offset[LB.length]? = some (some E.off)) := by
    unfold Sparse.mulSS
    refine Holds.next fun _ => ?_
    rw [hA.rows, hB.cols]
    refine Holds.bind (Holds.forRuns (fun q (E : Emit R) => EmitFrame (C.resize m n).value (C.resize m n).key E ∧ E.io = q)
      ⟨EmitFrame.start _, rfl⟩ ?_) ?_
    · rintro q E ⟨h1, h2⟩
      refine Holds.next fun scr => ?_
      refine Holds.bind (EmitFrame.mark h1) fun E ⟨g1, g2, _⟩ => ?_
      refine Holds.bind (Holds.ptr (fun t : Nat × Emit R => EmitFrame (C.resize m n).value (C.resize m n).key t.2 ∧ t.2.io = q + 1) ?_ _ _ _ _ ⟨g1, by rw [g2, h2]⟩) ?_
      · rintro p t ⟨a1, a2⟩
        refine Holds.next fun x => ?_
        dsimp only
        split
        · exact Holds.bind (EmitFrame.push a1 _ _) fun E' ⟨b1, b2⟩ => Holds.pure (a := (t.1 + 1, E')) ⟨b1, b2.trans a2⟩
        · exact Holds.pure (a := (t.1 + 1, t.2)) ⟨a1, a2⟩
      · rintro ⟨u, E⟩ hE
        exact Holds.pure hE
    · rintro E' ⟨-, g1, g2⟩
      refine Holds.bind (EmitFrame.mark g1) fun E ⟨a1, _, a3⟩ => Holds.pure ⟨E, rfl, a1, ?_⟩
      rw [g2, hB.offsLen, Nat.add_sub_cancel] at a3
      exact a3
  obtain ⟨E, rfl, h1, h2⟩ := key D e
  rw [← hl] at h2
  exact h1.spare h2 hD

theorem resizeBuf_fresh {T : Type} (b : Buf T) (n p : Nat) (h : b.length ≠ n) (hp : p < n) : (Dense.resizeBuf b n)[p]? = some none := by
  simp [Dense.resizeBuf, h, Buf.alloc, hp]

/-- C64, sums, exactly: a sum (or difference) into a matrix that has to be resized reports r·c stored elements; it
stores one where an operand does, and all other cells that it counts are uninitialised. -/
theorem C64_sum_exact (op : R → R → R) (un : R → R) (A B C : Sparse R) (r c : Nat) (LA LB : List (List (Nat × R)))
    (hA : A.Valid r c LA) (hB : B.Valid r c LB) (hBo : B.ori = A.ori) (hCo : C.ori = A.ori) (ho : A.ori = .col ∨ r = c)
    (hC : C.value.length ≠ r * c) (hCk : C.key.length = C.value.length) :
    ∃ D LD, Sparse.binop op un A B C = .ok D ∧ D.nnz = r * c ∧ D.Valid r c LD ∧
      (∀ q k, q < c → (storedAt (LD.getD q []) k = none ↔ storedAt (LA.getD q []) k = none ∧ storedAt (LB.getD q []) k = none)) ∧
      ∀ p, LD.flatten.length ≤ p → p < r * c → D.value[p]? = some none ∧ D.key[p]? = some none := by
  have hN : A.ori.minorIx r c = c := by
    rcases ho with h | h
    · rw [h]; rfl
    · cases A.ori <;> simp [Ori.minorIx, h]
  obtain ⟨D, e, h1, h2, LD, h3, h4⟩ := Sparse.binop_stored op un C hA hB hBo hCo hN
  refine ⟨D, LD, e, h2, h3, fun q k hq => ?_, fun p hp hp' => ?_⟩
  · rw [h4 q k hq]
    cases storedAt (LA.getD q []) k <;> cases storedAt (LB.getD q []) k <;> simp [joinStored]
  · obtain ⟨a1, a2⟩ := Sparse.binop_spare op un A B C D r c LA LD hA e h3 (by rw [h3.runs, hA.runs, h1]) p hp
    rw [a1, a2]
    exact ⟨resizeBuf_fresh _ _ _ hC hp', resizeBuf_fresh _ _ _ (by rw [hCk]; exact hC) hp'⟩

/-- The hypotheses can be met: a 2×3 matrix with two elements added to itself, 4 of 6 cells are garbage. -/
example : ∃ D LD, Sparse.binop (· + ·) id exSparse exSparse (Sparse.empty .col) = .ok D ∧ D.nnz = 6 ∧ D.Valid 2 3 LD ∧
    storedAt (LD.getD 0 []) 1 ≠ none ∧ storedAt (LD.getD 2 []) 0 = none := by
  obtain ⟨D, LD, e, h1, h2, h3, -⟩ := C64_sum_exact (· + ·) id exSparse exSparse (Sparse.empty .col) 2 3 _ _ exSparse_valid exSparse_valid rfl rfl
    (Or.inl rfl) (by decide) rfl
  refine ⟨D, LD, e, h1, h2, ?_, (h3 2 0 (by omega)).2 ⟨rfl, rfl⟩⟩
  rw [Ne, h3 0 1 (by omega)]
  rintro ⟨h, -⟩
  cases h

/-- C64, products, exactly: a product into a matrix that has to be resized reports m·n stored elements; the cells
behind those of the non-zero elements are uninitialised. -/
theorem C64_product_exact [Zero R] [Add R] [Mul R] [DecidableEq R] (A B C : Sparse R) (m k n : Nat) (LA LB : List (List (Nat × R)))
    (hA : A.Valid m k LA) (hB : B.Valid k n LB) (hAo : A.ori = .col) (hBo : B.ori = .col) (hCo : C.ori = .col)
    (hC : C.value.length ≠ m * n) (hCk : C.key.length = C.value.length) :
    ∃ D LD, Sparse.mulSS A B C = .ok D ∧ D.nnz = m * n ∧ D.Valid m n LD ∧ (∀ run ∈ LD, ∀ e ∈ run, e.2 ≠ 0) ∧
      ∀ p, LD.flatten.length ≤ p → p < m * n → D.value[p]? = some none ∧ D.key[p]? = some none := by
  obtain ⟨D, e, h1, h2, h3⟩ := Sparse.mulSS_stored C hA hB hAo hBo hCo
  refine ⟨D, _, e, h2, h3, ?_, fun p hp hp' => ?_⟩
  · intro run hrun x hx
    simp only [Sparse.picks, List.mem_map] at hrun
    obtain ⟨q, -, rfl⟩ := hrun
    simp only [Sparse.pick, List.mem_filterMap] at hx
    obtain ⟨i, -, hi⟩ := hx
    split at hi
    · rename_i hne
      cases hi
      simpa using hne
    · cases hi
  · obtain ⟨a1, a2⟩ := Sparse.mulSS_spare A B C D m k n LA LB _ hA hB e h3 (by rw [h3.runs, hB.runs, h1, hBo]; rfl) p hp
    rw [a1, a2]
    exact ⟨resizeBuf_fresh _ _ _ hC hp', resizeBuf_fresh _ _ _ (by rw [hCk]; exact hC) hp'⟩

/-- Converting an array reads all of it. -/
theorem convertBuf_ub {S : Type} (cvt : R → S) {b : Buf R} {p : Nat} (h : b[p]? = some none) : Dense.convertBuf cvt b = .error .ub := by
  have hp := (List.getElem?_eq_some_iff.1 h).1
  have : ∀ n, n ≤ b.length → ∀ d : Buf S, d.length = b.length →
      (p < n → loopN n (fun i (s : Nat × Buf S) => do
        let x ← b.read (0 + i * 1)
        let d ← s.2.write s.1 (cvt x)
        return (s.1 + 1, d)) (0, d) = .error .ub) ∧
      (n ≤ p → (∃ d', d'.length = b.length ∧ loopN n (fun i (s : Nat × Buf S) => do
        let x ← b.read (0 + i * 1)
        let d ← s.2.write s.1 (cvt x)
        return (s.1 + 1, d)) (0, d) = .ok (n, d')) ∨ loopN n (fun i (s : Nat × Buf S) => do
        let x ← b.read (0 + i * 1)
        let d ← s.2.write s.1 (cvt x)
        return (s.1 + 1, d)) (0, d) = .error .ub) := by
    intro n
    induction n with
    | zero => exact fun _ d hd => ⟨fun h => by omega, fun _ => Or.inl ⟨d, hd, rfl⟩⟩
    | succ n ih =>
      intro hn d hd
      obtain ⟨i1, i2⟩ := ih (by omega) d hd
      constructor
      · intro hlt
        rw [loopN]
        by_cases hc : p < n
        · rw [i1 hc]; rfl
        · have : p = n := by omega
          subst this
          rcases i2 (Nat.le_refl _) with ⟨d', -, e⟩ | e
          · rw [e]
            show ((b.read (0 + p * 1)) >>= _) = _
            rw [Nat.zero_add, Nat.mul_one, show b.read p = .error .ub by simp [Buf.read, h]]; rfl
          · rw [e]; rfl
      · intro hlt
        rw [loopN]
        rcases i2 (by omega) with ⟨d', hd', e⟩ | e
        · rw [e]
          cases hr : b.read n with
          | error f =>
            have : f = .ub := by
              unfold Buf.read at hr
              split at hr
              · cases hr
              · cases hr; rfl
            subst this
            right
            show ((b.read (0 + n * 1)) >>= _) = _
            rw [Nat.zero_add, Nat.mul_one, hr]; rfl
          | ok x =>
            left
            refine ⟨d'.set n (some (cvt x)), by simp [hd'], ?_⟩
            show ((b.read (0 + n * 1)) >>= _) = _
            rw [Nat.zero_add, Nat.mul_one, hr, bind_ok', Buf.write_ok (by show n < d'.length; omega)]; rfl
        · right; rw [e]; rfl
  unfold Dense.convertBuf
  rw [ptrLoop_eq _ b.length 0 _ 1 _ (by omega) (by omega), (this b.length (Nat.le_refl _) (Buf.alloc b.length) (by simp)).1 hp]
  rfl

/-- C64, conversion, exactly: a sparse matrix can be converted to another element type, or copied into a matrix of
another type, exactly if every cell that it counts is initialised. -/
theorem C64_convert_iff {T : Type} (cvt : R → T) (S : Sparse R) (r c : Nat) (L : List (List (Nat × R))) (hS : S.Valid r c L) :
    ((∃ T, S.convert cvt S.ori = .ok T) ↔ ∀ p, p < S.nnz → S.value[p]? ≠ some none ∧ S.key[p]? ≠ some none) ∧
    ((∃ T, S.convert cvt S.ori = .ok T) ∨ S.convert cvt S.ori = .error .ub) := by
  have hof : ∀ x ∈ S.offset, x ≠ none := by
    intro x hx
    obtain ⟨q, hq, rfl⟩ := List.getElem_of_mem hx
    have := hS.offs q (by rw [hS.offsLen] at hq; omega)
    rw [List.getElem?_eq_getElem hq] at this
    intro hc; rw [hc] at this; cases this
  by_cases hv : ∀ x ∈ S.value, x ≠ none
  · by_cases hk : ∀ x ∈ S.key, x ≠ none
    · have e : S.convert cvt S.ori = .ok ⟨S.ori, Dim.mk' S.dim.rows S.dim.cols, S.value.map (Option.map cvt), S.key.map (Option.map id), S.offset.map (Option.map id)⟩ := by
        unfold Sparse.convert
        rw [if_pos rfl]
        show (do let vs ← Dense.convertBuf cvt S.value; _) = _
        rw [convertBuf_eq cvt hv, bind_ok', convertBuf_eq id hk, bind_ok', convertBuf_eq id hof]; rfl
      refine ⟨⟨fun _ p hp => ⟨fun hc => hv none (List.mem_of_getElem? hc) rfl, fun hc => hk none (List.mem_of_getElem? hc) rfl⟩, fun _ => ⟨_, e⟩⟩, Or.inl ⟨_, e⟩⟩
    · push Not at hk
      obtain ⟨x, hx, rfl⟩ := hk
      obtain ⟨p, hp, hpx⟩ := List.getElem_of_mem hx
      have e : S.convert cvt S.ori = .error .ub := by
        unfold Sparse.convert
        rw [if_pos rfl]
        show (do let vs ← Dense.convertBuf cvt S.value; _) = _
        rw [convertBuf_eq cvt hv, bind_ok', convertBuf_ub id (p := p) (by rw [List.getElem?_eq_getElem hp, hpx])]; rfl
      refine ⟨⟨fun ⟨T, h⟩ => (by rw [e] at h; cases h), fun h => ?_⟩, Or.inr e⟩
      exact absurd (by rw [List.getElem?_eq_getElem hp, hpx]) (h p (by unfold Sparse.nnz; rw [← hS.keyLen]; exact hp)).2
  · push Not at hv
    obtain ⟨x, hx, rfl⟩ := hv
    obtain ⟨p, hp, hpx⟩ := List.getElem_of_mem hx
    have e : S.convert cvt S.ori = .error .ub := by
      unfold Sparse.convert
      rw [if_pos rfl]
      show (do let vs ← Dense.convertBuf cvt S.value; _) = _
      rw [convertBuf_ub cvt (p := p) (by rw [List.getElem?_eq_getElem hp, hpx])]; rfl
    refine ⟨⟨fun ⟨T, h⟩ => (by rw [e] at h; cases h), fun h => ?_⟩, Or.inr e⟩
    exact absurd (by rw [List.getElem?_eq_getElem hp, hpx]) (h p hp).1

/-- C64, so: a sum into a matrix that has to be resized can be converted exactly if it stores all r·c elements. -/
theorem C64_convert_of_sum_iff {T : Type} (cvt : R → T) (op : R → R → R) (un : R → R) (A B C : Sparse R) (r c : Nat) (LA LB : List (List (Nat × R)))
    (hA : A.Valid r c LA) (hB : B.Valid r c LB) (hBo : B.ori = A.ori) (hCo : C.ori = A.ori) (ho : A.ori = .col ∨ r = c)
    (hC : C.value.length ≠ r * c) (hCk : C.key.length = C.value.length) :
    ∃ D LD, Sparse.binop op un A B C = .ok D ∧ D.Valid r c LD ∧ ((∃ T, D.convert cvt D.ori = .ok T) ↔ LD.flatten.length = r * c) ∧
      (LD.flatten.length ≠ r * c → D.convert cvt D.ori = .error .ub) := by
  obtain ⟨D, LD, e, h1, h2, -, h3⟩ := C64_sum_exact op un A B C r c LA LB hA hB hBo hCo ho hC hCk
  have hle : LD.flatten.length ≤ r * c := by
    rw [← h1]
    by_contra hc
    have hx := List.getElem?_eq_getElem (l := LD.flatten) (i := D.nnz) (by omega)
    have := (List.getElem?_eq_some_iff.1 (h2.cells _ _ hx).2).1
    exact absurd this (Nat.lt_irrefl _)
  obtain ⟨c1, c2⟩ := C64_convert_iff cvt D r c LD h2
  have iff : (∃ T, D.convert cvt D.ori = .ok T) ↔ LD.flatten.length = r * c := by
    rw [c1]
    constructor
    · intro h
      by_contra hne
      have hlt : LD.flatten.length < r * c := by omega
      exact (h _ (by rw [h1]; exact hlt)).1 (h3 _ (Nat.le_refl _) hlt).1
    · intro h p hp
      rw [h1, ← h] at hp
      obtain ⟨k1, k2⟩ := h2.cells p _ (List.getElem?_eq_getElem hp)
      rw [k1, k2]; exact ⟨by simp, by simp⟩
  exact ⟨D, LD, e, h2, iff, fun hne => c2.resolve_left fun h => hne (iff.1 h)⟩

/-- C64, transposes of nothing, for all dimensions: the transpose of a matrix that stores nothing reports all c·r
elements as stored, every one of them uninitialised. -/
theorem C64_transpose_of_nothing (S : Sparse R) (r c : Nat) (L : List (List (Nat × R))) (hS : S.Valid r c L)
    (ho : S.ori = .col ∨ r = c) (hr : 0 < r) (h0 : S.nnz = 0) :
    ∃ T, S.transpose = .ok T ∧ T.nnz = c * r ∧ T.value = Buf.alloc (c * r) ∧ T.key = Buf.alloc (c * r) := by
  have hK : S.ori.majorIx r c = r := by
    rcases ho with h | h
    · rw [h]; rfl
    · cases S.ori <;> simp [Ori.majorIx, h]
  obtain ⟨T, e, h1, h2, h3⟩ := Sparse.transpose_sat hS hK hr
  have hL : ∀ (q : Nat) (run : List (Nat × R)), L[q]? = some run → run = [] := by
    intro q run hq
    cases run with
    | nil => rfl
    | cons x run =>
      have := (List.getElem?_eq_some_iff.1 (hS.cells _ _ (flatten_getElem? L q 0 (x :: run) x hq rfl)).2).1
      unfold Sparse.nnz at h0
      omega
  have key : Holds S.transpose (fun T => T.value = Buf.alloc (c * r) ∧ T.key = Buf.alloc (c * r)) := by
    unfold Sparse.transpose
    rw [hS.rows, hS.cols, h0]
    refine Holds.next fun off => Holds.next fun off => Holds.next fun off => ?_
    refine Holds.bind (P := fun s : Nat × Buf Nat × Buf R × Buf Nat => s.2.2.1 = Buf.alloc (c * r) ∧ s.2.2.2 = Buf.alloc (c * r)) ?_ ?_
    · obtain ⟨s, es, hs⟩ := Sat.forRuns hS (body := fun q (s : Nat × Buf Nat × Buf R × Buf Nat) => do
        let s' ← S.forRun q (fun k x (t : Buf Nat × Buf R × Buf Nat) => do
          let o ← off.read k
          let c ← t.1.read k
          let vs ← t.2.1.write (o + c) x
          let ks ← t.2.2.write (o + c) s.1
          let cur ← t.1.write k (c + 1)
          return (cur, vs, ks)) s.2
        return (s.1 + 1, s')) (s := (0, (List.replicate (off.length - 1) (some 0) : Buf Nat), (Sparse.new S.ori c r 0 : Sparse R).value, (Sparse.new S.ori c r 0 : Sparse R).key))
        (fun _ s => s.2.2.1 = Buf.alloc (c * r) ∧ s.2.2.2 = Buf.alloc (c * r)) ⟨rfl, rfl⟩ (by
          rintro q run s hq hs
          have hnil := hL q run hq
          subst hnil
          refine Sat.bind (Sat.forRun hS hq (fun _ t => t.2.1 = Buf.alloc (c * r) ∧ t.2.2 = Buf.alloc (c * r)) hs ?_) fun t ht => Sat.pure ht
          intro pre x suf s' hh
          simp at hh)
      intro a ea
      rw [es] at ea; cases ea; exact hs
    · rintro ⟨u, cur, vs, ks⟩ h
      exact Holds.pure h
  obtain ⟨k1, k2⟩ := key T e
  exact ⟨T, e, by unfold Sparse.nnz; rw [k1]; simp, k1, k2⟩

/-- C63, sparse transposition, for every matrix without rows: undefined. -/
theorem C63_sparse_transpose_no_rows (S : Sparse R) (c : Nat) (L : List (List (Nat × R))) (hS : S.Valid 0 c L) :
    S.transpose = .error .ub := by
  have hL : ∀ (q : Nat) (run : List (Nat × R)), L[q]? = some run → run = [] := by
    intro q run hq
    cases ho : S.ori with
    | row =>
      have := hS.runs
      rw [ho] at this
      rw [List.length_eq_zero_iff.1 this] at hq; cases hq
    | col =>
      cases run with
      | nil => rfl
      | cons x run =>
        have := hS.bound _ (List.mem_of_getElem? hq) x (by simp)
        rw [ho] at this; simp [Ori.majorIx] at this
  unfold Sparse.transpose
  rw [hS.rows, hS.cols]
  simp only [Sparse.new, Dense.fillBuf_ok, bind_ok']
  obtain ⟨off, eoff, hoff⟩ := Sat.forRuns hS (body := fun q off => do
    let b ← S.offset.read q
    let e ← S.offset.read (q + 1)
    ptrLoop b e 1 (fun p (off : Buf Nat) => do
      let k ← S.key.read p
      let n ← off.read (k + 1)
      off.write (k + 1) (n + 1)) off) (s := (List.replicate (Buf.alloc (0 + 1) : Buf Nat).length (some 0) : Buf Nat)) (fun _ (off : Buf Nat) => off.length = 1) rfl (by
      intro q run off hq hoff
      have hlt := (List.getElem?_eq_some_iff.1 hq).1
      have hnil := hL q run hq
      subst hnil
      refine Sat.read (hS.readOff (by omega)) (Sat.read (hS.readOff (by omega)) ?_)
      rw [take_succ_flatten_length L q [] hq]
      exact Sat.listLoop (l := ([] : List Nat)) (fun _ (off : Buf Nat) => off.length = 1) hoff (by intro pre e suf s hh; simp at hh))
  rw [eoff, bind_ok', hoff]
  have : ptrLoop 2 1 1 (fun p (off : Buf Nat) => do
      let a ← off.read p
      let b ← off.read (p - 1)
      off.write p (a + b)) off = .error .ub := by
    have hr : off.read 2 = .error .ub := by
      unfold Buf.read
      rw [List.getElem?_eq_none (by omega)]
    simp [ptrLoop, ptrLoopAux, hr]
    rfl
  rw [this]; rfl

end BB
