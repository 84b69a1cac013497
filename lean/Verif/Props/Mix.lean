import Verif.Model.Mix
import Verif.Props.StoredProduct
import Verif.Props.Alias

/-! C118: programs over matrices of all kinds. -/

namespace BB

variable {R : Type}

open Sparse (pick picks pick_succ pick_bound trq trq_succ trq_bound trans)

/-! ### Stored elements of transposed and converted matrices and of sparse products -/

theorem storedAt_append_left (a b : List (Nat × R)) (q : Nat) (h : ∀ e ∈ b, e.1 ≠ q) : storedAt (a ++ b) q = storedAt a q := by
  induction a with
  | nil => simp [storedAt_nil, storedAt_not_mem b q h]
  | cons x a ih => rw [List.cons_append, storedAt_cons, storedAt_cons, ih]

theorem storedAt_append_right (a b : List (Nat × R)) (q : Nat) (h : ∀ e ∈ a, e.1 ≠ q) : storedAt (a ++ b) q = storedAt b q := by
  induction a with
  | nil => rfl
  | cons x a ih => rw [List.cons_append, storedAt_cons, if_neg (h x (by simp)), ih (fun e he => h e (by simp [he]))]

theorem storedAt_filter_map (run : List (Nat × R)) (k q : Nat) :
    storedAt ((run.filter (fun e => e.1 == k)).map (fun e => (q, e.2))) q = storedAt run k := by
  induction run with
  | nil => rfl
  | cons x run ih =>
    rw [storedAt_cons]
    by_cases h : x.1 = k
    · rw [if_pos h, List.filter_cons, if_pos (by simpa using h), List.map_cons, storedAt_cons, if_pos rfl]
    · rw [if_neg h, List.filter_cons, if_neg (by simpa using h), ih]

theorem storedAt_trq (L : List (List (Nat × R))) (n k q : Nat) :
    storedAt (trq L n k) q = if q < n then storedAt (L.getD q []) k else none := by
  induction n with
  | zero => simp [trq, storedAt_nil]
  | succ n ih =>
    rw [trq_succ]
    by_cases hq : q = n
    · subst hq
      rw [storedAt_append_right _ _ _ (fun e he => by have := trq_bound L q k e he; omega), storedAt_filter_map]
      simp
    · rw [storedAt_append_left _ _ _ (by
        intro e he
        simp only [List.mem_map] at he
        obtain ⟨a, _, rfl⟩ := he
        exact fun h => hq h.symm), ih]
      have : (q < n + 1) = (q < n) := by apply propext; omega
      simp only [this]

theorem Sparse.transpose_stored {S : Sparse R} {r c : Nat} {f : Nat → Nat → Option R} (h : (SMat.sparse S).Stores r c f) (hr : 0 < r) :
    ∃ T, S.transpose = .ok T ∧ (SMat.sparse T).Stores c r (fun i j => f j i) := by
  obtain ⟨ho, L, hL, hf⟩ := h
  obtain ⟨T, e, h1, -, h3⟩ := Sparse.transpose_sat hL (by rw [ho]; rfl) hr
  refine ⟨T, e, by rw [h1, ho], _, h3, ?_⟩
  intro j i hj hi
  have hN : L.length = c := by rw [hL.runs, ho]; rfl
  rw [h1, ho]
  show f i j = storedAt ((trans L r).getD i []) j
  have : (trans L r).getD i [] = trq L L.length i := by simp [trans, List.getD, hi]
  rw [this, storedAt_trq, if_pos (by omega), hf i j hi hj, ho]
  rfl

theorem Sparse.mulSS_keeps [Zero R] [Add R] [Mul R] [DecidableEq R] {A B : Sparse R} {m k n : Nat} {f g : Nat → Nat → Option R}
    (hA : (SMat.sparse A).Stores m k f) (hB : (SMat.sparse B).Stores k n g) :
    ∃ D, Sparse.mulSS A B (Sparse.empty .col) = .ok D ∧ (SMat.sparse D).Stores m n
      (fun i j => if dotStored f g k i j = 0 then none else some (dotStored f g k i j)) := by
  obtain ⟨hAo, LA, hA, hf⟩ := hA
  obtain ⟨hBo, LB, hB, hg⟩ := hB
  obtain ⟨D, e, h1, -, h3⟩ := Sparse.mulSS_stored (Sparse.empty .col) hA hB hAo hBo rfl
  refine ⟨D, e, h1, _, h3, ?_⟩
  intro i j hi hj
  rw [h1]
  show _ = storedAt (List.getD _ j []) i
  have e1 : ∀ G : Nat → Nat → R, (picks (fun x => decide (x ≠ 0)) id G m n).getD j []
      = pick (fun x => decide (x ≠ 0)) id G m j := by
    intro G; simp [picks, List.getD, hj]
  have key : dotStored (fun i l => storedAt (LA.getD l []) i) (fun l j => storedAt (LB.getD j []) l) k i j = dotStored f g k i j := by
    refine Sparse.dotStored_congr (fun l hl => ?_) (fun l hl => ?_)
    · rw [hf i l hi hl, hAo]; rfl
    · rw [hg l j hl hj, hBo]; rfl
  rw [e1, storedAt_pick, key]
  by_cases hz : dotStored f g k i j = 0
  · simp [hz]
  · simp [hz, hi]

theorem Dense.set_is {A : Dense R} {r c : Nat} {f : Nat → Nat → R} (h : A.Is r c f) {i j : Nat} (hi : i < r) (hj : j < c) (x : R) :
    ∃ D, A.set i j x = .ok D ∧ D.ori = A.ori ∧ D.Is r c (fun k l => if k = i ∧ l = j then x else f k l) := by
  have hv := h.view_rows
  have hf := h.fits
  have hc := h.cells
  rw [hv] at hf hc
  obtain ⟨b, e, hl, hc, -⟩ := hc.write hf x hi hj
  rw [Dense.set, hv, View.set_eq hi hj, e]
  refine ⟨_, rfl, rfl, Dense.is_of_cells h.rows h.cols h.size (hl.trans h.alloc) ?_⟩
  refine hc.congr fun k l _ _ => ?_
  split <;> rfl

theorem SMat.Stores.denseIs [Zero R] {M : SMat R} {r c : Nat} {f : Nat → Nat → Option R} (h : M.Stores r c f) :
    M.Is r c (fun i j => (f i j).getD 0) := by
  cases M with
  | dense A =>
    obtain ⟨ho, g, hA, hf⟩ := h
    exact ⟨hA.congr fun i j hi hj => by rw [hf i j hi hj]; rfl, ho⟩
  | sparse A => exact ⟨h.2.is, h.1⟩
  | zero d => exact ⟨h.1, h.2.1, fun i j hi hj => by beta_reduce; rw [h.2.2 i j hi hj]; rfl⟩

theorem SMat.Stores.rows {M : SMat R} {r c : Nat} {f : Nat → Nat → Option R} (h : M.Stores r c f) : M.rows = r ∧ M.cols = c := by
  cases M with
  | dense A => obtain ⟨-, g, hA, -⟩ := h; exact ⟨hA.rows, hA.cols⟩
  | sparse A => obtain ⟨-, L, hL, -⟩ := h; exact ⟨hL.rows, hL.cols⟩
  | zero d => exact ⟨h.1, h.2.1⟩

theorem SMat.Stores.congr {M : SMat R} {r c : Nat} {f g : Nat → Nat → Option R} (h : M.Stores r c f)
    (hfg : ∀ i j, i < r → j < c → f i j = g i j) : M.Stores r c g := by
  cases M with
  | dense A => obtain ⟨ho, k, hA, hf⟩ := h; exact ⟨ho, k, hA, fun i j hi hj => by rw [← hfg i j hi hj, hf i j hi hj]⟩
  | sparse A => obtain ⟨ho, L, hL, hf⟩ := h; exact ⟨ho, L, hL, fun i j hi hj => by rw [← hfg i j hi hj, hf i j hi hj]⟩
  | zero d => exact ⟨h.1, h.2.1, fun i j hi hj => by rw [← hfg i j hi hj, h.2.2 i j hi hj]⟩

namespace Mix

/-- A matrix has the given type and dimension and stores the given elements. -/
def Has (M : SMat R) (v : Val R) : Prop := kindOf M = v.kind ∧ M.Stores v.rows v.cols v.elem

/-- The variables have their meaning. -/
def Agrees (s : State R) (E : Env R) : Prop :=
  ∀ x, match E x with
    | some v => ∃ M, s x = some M ∧ Has M v
    | none => s x = none

theorem Agrees.get {s : State R} {E : Env R} (h : Agrees s E) {x : Nat} {v : Val R} (hx : E x = some v) :
    ∃ M, s.get x = .ok M ∧ Has M v := by
  have := h x
  rw [hx] at this
  obtain ⟨M, e, hM⟩ := this
  exact ⟨M, by simp [State.get, e], hM⟩

theorem Agrees.put {s : State R} {E : Env R} (h : Agrees s E) (x : Nat) {M : SMat R} {v : Val R} (hM : Has M v) :
    Agrees (s.put x M) (E.put x v) := by
  intro y
  unfold Env.put State.put
  by_cases hy : y = x
  · simp only [hy, if_true]
    exact ⟨M, rfl, hM⟩
  · simp only [hy, if_false]
    exact h y

theorem Has.dense {M : SMat R} {v : Val R} (h : Has M v) (hk : v.kind = .dense) :
    ∃ A f, M = .dense A ∧ A.ori = .col ∧ A.Is v.rows v.cols f ∧ ∀ i j, i < v.rows → j < v.cols → v.elem i j = some (f i j) := by
  obtain ⟨h1, h2⟩ := h
  rw [hk] at h1
  cases M with
  | dense A => obtain ⟨ho, g, hA, hf⟩ := h2; exact ⟨A, g, rfl, ho, hA, hf⟩
  | sparse A => cases h1
  | zero d => cases h1

theorem kind_binop {op : R → R → R} {un : R → R} {A B C : SMat R} (h : SMat.binop op un A B = .ok C) :
    kindOf C = (kindOf A).join (kindOf B) := by
  have key : ∀ {α : Type} {x : Res α} {k : α → SMat R}, (x >>= fun a => pure (k a)) = Except.ok C → ∃ a, C = k a := by
    intro α x k h
    cases x with
    | error e => cases h
    | ok a => exact ⟨a, by cases h; rfl⟩
  cases A <;> cases B <;> simp only [SMat.binop] at h <;>
    first
    | (cases h; rfl)
    | (obtain ⟨a, rfl⟩ := key h; rfl)

theorem mul_has [Zero R] [Add R] [Mul R] [DecidableEq R] {A B : SMat R} {a b : Val R} (hA : Has A a) (hB : Has B b) (hk : a.cols = b.rows) :
    ∃ C, SMat.mul A B = .ok C ∧ Has C ⟨a.kind.prod b.kind, a.rows, b.cols,
      fun i j => keep (a.kind.prod b.kind) (dotStored a.elem b.elem a.cols i j)⟩ := by
  obtain ⟨ka, m, k, f⟩ := a
  obtain ⟨kb, k', n, g⟩ := b
  obtain ⟨rfl, hA⟩ := hA
  obtain ⟨rfl, hB⟩ := hB
  simp only at hk hA hB ⊢
  subst hk
  by_cases hss : kindOf A = .sparse ∧ kindOf B = .sparse
  · cases A with
    | sparse A =>
      cases B with
      | sparse B =>
        obtain ⟨D, e, hD⟩ := Sparse.mulSS_keeps hA hB
        exact ⟨.sparse D, by simp only [SMat.mul, e]; rfl, rfl, hD⟩
      | dense B => cases hss.2
      | zero B => cases hss.2
    | dense A => cases hss.1
    | zero A => cases hss.1
  · obtain ⟨C, e, hC⟩ := SMat.mul_stored hA hB
    refine ⟨C, e, ?_⟩
    have key : ∀ {α : Type} {x : Res α} {q : α → SMat R}, (x >>= fun a => pure (q a)) = Except.ok C → ∃ a, C = q a := by
      intro α x q h
      cases x with
      | error e => cases h
      | ok a => exact ⟨a, by cases h; rfl⟩
    have zero : ∀ {r k k' c : Nat}, SMat.mulZero r k k' c = .ok C → ∃ d, C = .zero d := by
      intro r k k' c h
      unfold SMat.mulZero assertThat at h
      split at h
      · cases h; exact ⟨_, rfl⟩
      · cases h
    cases A <;> cases B <;> simp only [SMat.mul] at e <;>
      first
      | exact absurd ⟨rfl, rfl⟩ hss
      | (obtain ⟨d, rfl⟩ := zero e
         exact ⟨rfl, hC.1, hC.2.1, fun _ _ _ _ => rfl⟩)
      | (obtain ⟨d, rfl⟩ := key e
         exact ⟨rfl, hC.2, _, hC.1, fun _ _ _ _ => rfl⟩)

theorem inPlace_has [Zero R] [Add R] [Sub R] [Neg R] [Mul R] [DecidableEq R] (op : R → R → R) {s : State R} {E : Env R} (h : Agrees s E) {x y : Nat} {a b : Val R} (hx : E x = some a) (hy : E y = some b)
    (hr : a.rows = b.rows) (hc : a.cols = b.cols) (hk : a.kind = .dense) :
    ∃ s', inPlaceStep op s x y = .ok s' ∧
      Agrees s' (E.put x { a with elem := fun i j => inPlace op (a.elem i j) (b.elem i j) }) := by
  obtain ⟨A, eA, hA⟩ := h.get hx
  obtain ⟨B, eB, hB⟩ := h.get hy
  obtain ⟨A, f, rfl, ho, hA, hf⟩ := hA.dense hk
  unfold inPlaceStep
  rw [eA, eB]
  simp only [bind_ok']
  by_cases hxy : x = y
  · subst hxy
    rw [hx] at hy
    cases hy
    obtain ⟨D, e, h1, h2⟩ := Alias.C72_self op hA
    rw [if_pos rfl, e]
    refine ⟨_, rfl, h.put x ⟨hk.symm, by rw [h1, ho], _, h2, fun i j hi hj => ?_⟩⟩
    simp only [hf i j hi hj, inPlace]
  · rw [if_neg hxy]
    obtain ⟨D, e, h1, h2⟩ := C117_in_place op A B a.rows a.cols f b.elem hA ho (by rw [hr, hc]; exact hB.2)
    rw [e]
    refine ⟨_, rfl, h.put x ⟨hk.symm, h1, _, h2, fun i j hi hj => ?_⟩⟩
    simp only [hf i j hi hj, inPlace]
    cases b.elem i j <;> rfl

variable [Zero R] [Add R] [Sub R] [Neg R] [Mul R] [DecidableEq R]

theorem step_agrees (comm : ∀ a b : R, a + b = b + a) {s : State R} {E E' : Env R} (h : Agrees s E) {t : Stmt R} (ht : means E t = some E') :
    ∃ s', step s t = .ok s' ∧ Agrees s' E' := by
  cases t with
  | new x r c v =>
    cases ht
    refine ⟨_, by simp only [step, Dense.fillAll_ok]; rfl, h.put x (M := .dense ⟨.col, Dim.mk' r c, List.replicate (Buf.alloc (R := R) (r * c)).length (some v)⟩) ⟨rfl, rfl, fun _ _ => v, ?_, fun _ _ _ _ => rfl⟩⟩
    exact Dense.is_mk (by simp [Dense.new]) (by simpa [Dense.new] using Dense.replicate_cells .col r c v)
  | zero x r c =>
    cases ht
    exact ⟨_, rfl, h.put x ⟨rfl, rfl, rfl, fun _ _ _ _ => rfl⟩⟩
  | set x i j v =>
    simp only [means] at ht
    split at ht
    · rename_i a ha
      split at ht
      · rename_i hc
        cases ht
        obtain ⟨M, e, hM⟩ := h.get ha
        obtain ⟨A, f, rfl, ho, hA, hf⟩ := hM.dense hc.1
        obtain ⟨D, e', h1, h2⟩ := Dense.set_is hA hc.2.1 hc.2.2 v
        refine ⟨_, by simp only [step, e, bind_ok', e']; rfl, h.put x (M := .dense D) ⟨hc.1.symm, by rw [h1, ho], _, h2, fun k l hk hl => ?_⟩⟩
        beta_reduce
        dsimp only
        rw [hf k l hk hl]
        split <;> rfl
      · cases ht
    · cases ht
  | sparse x y chk =>
    simp only [means] at ht
    split at ht
    · rename_i a ha
      split at ht
      · rename_i hc
        cases ht
        obtain ⟨M, e, hM⟩ := h.get ha
        obtain ⟨A, f, rfl, ho, hA, hf⟩ := hM.dense hc
        obtain ⟨S, e', hS⟩ := C117_conversion_stores chk A a.rows a.cols f hA ho
        refine ⟨_, by simp only [step, e, bind_ok', e']; rfl, h.put x ⟨rfl, hS.congr fun i j hi hj => ?_⟩⟩
        show _ = Option.filter chk (a.elem i j)
        rw [hf i j hi hj]
        simp [Option.filter]
      · cases ht
    · cases ht
  | dense x y =>
    simp only [means] at ht
    split at ht
    · rename_i a ha
      cases ht
      obtain ⟨M, e, hM⟩ := h.get ha
      obtain ⟨D, e', h1, h2⟩ := Mat.denseOf_sat hM.2.denseIs
      exact ⟨_, by simp only [step, e, bind_ok', e']; rfl, h.put x (M := .dense D) ⟨rfl, h2, _, h1, fun _ _ _ _ => rfl⟩⟩
    · cases ht
  | toZero x y =>
    simp only [means] at ht
    split at ht
    · rename_i a ha
      cases ht
      obtain ⟨M, e, hM⟩ := h.get ha
      exact ⟨_, by simp only [step, e, bind_ok']; rfl, h.put x (M := .zero (Dim.mk' M.rows M.cols)) ⟨rfl, hM.2.rows.1, hM.2.rows.2, fun _ _ _ _ => rfl⟩⟩
    · cases ht
  | copy x y =>
    simp only [means] at ht
    split at ht
    · rename_i a ha
      cases ht
      obtain ⟨M, e, hM⟩ := h.get ha
      exact ⟨_, by simp only [step, e, bind_ok']; rfl, h.put x hM⟩
    · cases ht
  | add x y z =>
    simp only [means] at ht
    split at ht
    · rename_i a b ha hb
      split at ht
      · rename_i hc
        cases ht
        obtain ⟨A, eA, hA⟩ := h.get ha
        obtain ⟨B, eB, hB⟩ := h.get hb
        obtain ⟨C, e, hC⟩ := C117_sum comm A B a.rows a.cols _ _ hA.2 (by rw [hc.1, hc.2]; exact hB.2)
        refine ⟨_, by simp only [step, eA, eB, bind_ok', e]; rfl, h.put x ⟨?_, hC⟩⟩
        rw [kind_binop e, hA.1, hB.1]
      · cases ht
    · cases ht
  | sub x y z =>
    simp only [means] at ht
    split at ht
    · rename_i a b ha hb
      split at ht
      · rename_i hc
        cases ht
        obtain ⟨A, eA, hA⟩ := h.get ha
        obtain ⟨B, eB, hB⟩ := h.get hb
        have ok : SMat.SubOk A B := by
          obtain ⟨-, -, c1, c2⟩ := hc
          rw [← hA.1, ← hB.1] at c1 c2
          constructor <;> cases A <;> cases B <;> simp_all [SMat.isDense, SMat.isSparse, SMat.isZero, kindOf]
        obtain ⟨C, e, hC⟩ := C117_difference A B a.rows a.cols _ _ hA.2 (by rw [hc.1, hc.2.1]; exact hB.2) ok
        refine ⟨_, by simp only [step, eA, eB, bind_ok', e]; rfl, h.put x ⟨?_, hC⟩⟩
        rw [kind_binop e, hA.1, hB.1]
      · cases ht
    · cases ht
  | addTo x y =>
    simp only [means] at ht
    split at ht
    · rename_i a b ha hb
      split at ht
      · rename_i hc
        cases ht
        exact inPlace_has (· + ·) h ha hb hc.1 hc.2.1 hc.2.2
      · cases ht
    · cases ht
  | subFrom x y =>
    simp only [means] at ht
    split at ht
    · rename_i a b ha hb
      split at ht
      · rename_i hc
        cases ht
        exact inPlace_has (· - ·) h ha hb hc.1 hc.2.1 hc.2.2
      · cases ht
    · cases ht
  | mul x y z =>
    simp only [means] at ht
    split at ht
    · rename_i a b ha hb
      split at ht
      · rename_i hc
        cases ht
        obtain ⟨A, eA, hA⟩ := h.get ha
        obtain ⟨B, eB, hB⟩ := h.get hb
        obtain ⟨C, e, hC⟩ := mul_has hA hB hc
        exact ⟨_, by simp only [step, eA, eB, bind_ok', e]; rfl, h.put x hC⟩
      · cases ht
    · cases ht
  | trans x y =>
    simp only [means] at ht
    split at ht
    · rename_i a ha
      split at ht
      · rename_i hc
        cases ht
        obtain ⟨M, e, hM⟩ := h.get ha
        cases M with
        | dense A =>
          obtain ⟨ho, f, hA, hf⟩ := hM.2
          obtain ⟨T, e', h1, h2⟩ := Dense.transpose_sat hA
          exact ⟨_, by simp only [step, e, bind_ok', e']; rfl, h.put x (M := .dense T) ⟨hM.1, by rw [h1, ho], _, h2, fun i j hi hj => hf j i hj hi⟩⟩
        | sparse A =>
          have hr : 0 < a.rows := by
            rcases hc with hc | hc
            · rw [← hM.1] at hc; cases hc
            · exact hc.2
          obtain ⟨T, e', hT⟩ := Sparse.transpose_stored hM.2 hr
          exact ⟨_, by simp only [step, e, bind_ok', e']; rfl, h.put x (M := .sparse T) ⟨hM.1, hT⟩⟩
        | zero d =>
          rw [← hM.1] at hc
          rcases hc with hc | hc
          · cases hc
          · cases hc.1
      · cases ht
    · cases ht
  | drop x =>
    simp only [means] at ht
    split at ht
    · rename_i a ha
      cases ht
      obtain ⟨M, e, hM⟩ := h.get ha
      refine ⟨_, by simp only [step, e, bind_ok']; rfl, fun y => ?_⟩
      by_cases hy : y = x
      · simp only [hy, if_true]
      · simp only [hy, if_false]
        exact h y
    · cases ht

theorem run_agrees (comm : ∀ a b : R, a + b = b + a) (prog : List (Stmt R)) {s : State R} {E E' : Env R} (h : Agrees s E)
    (ht : meaning prog E = some E') : ∃ s', run prog s = .ok s' ∧ Agrees s' E' := by
  induction prog generalizing s E with
  | nil => cases ht; exact ⟨s, rfl, h⟩
  | cons t ts ih =>
    simp only [meaning] at ht
    cases hE : means E t with
    | none => rw [hE] at ht; cases ht
    | some E1 =>
      rw [hE] at ht
      obtain ⟨s1, e1, h1⟩ := step_agrees comm h hE
      obtain ⟨s2, e2, h2⟩ := ih h1 ht
      exact ⟨s2, by simp only [run, e1, bind_ok', e2], h2⟩

end Mix

open Mix in
/-- C118: whatever the arithmetic, as long as sums commute: a program that has a meaning runs without failure, and afterwards every
variable has the type and the dimension of its meaning, stores exactly the elements of its meaning, and converted to a dense
matrix shows them, with 0 where none is stored. -/
theorem C118_programs [Zero R] [Add R] [Sub R] [Neg R] [Mul R] [DecidableEq R] (comm : ∀ a b : R, a + b = b + a)
    (prog : List (Stmt R)) (E : Env R) (h : meaning prog (fun _ => none) = some E) :
    ∃ s, run prog (fun _ => none) = .ok s ∧ ∀ x,
      (E x = none → s x = none) ∧
      ∀ v, E x = some v → ∃ M D, s x = some M ∧ kindOf M = v.kind ∧ M.rows = v.rows ∧ M.cols = v.cols ∧
        M.Stores v.rows v.cols v.elem ∧ Mat.denseOf M = .ok D ∧
        ∀ i j, i < v.rows → j < v.cols → D.get i j = .ok ((v.elem i j).getD 0) := by
  obtain ⟨s, e, hs⟩ := run_agrees comm prog (s := fun _ => none) (E := fun _ => none) (fun _ => rfl) h
  refine ⟨s, e, fun x => ⟨fun hx => ?_, fun v hx => ?_⟩⟩
  · have := hs x
    rw [hx] at this
    exact this
  · have := hs x
    rw [hx] at this
    obtain ⟨M, eM, hM⟩ := this
    obtain ⟨D, eD, hD, -⟩ := Mat.denseOf_sat hM.2.denseIs
    exact ⟨M, D, eM, hM.1, hM.2.rows.1, hM.2.rows.2, hM.2, eD, fun i j hi hj => hD.elems i j hi hj⟩

/-! ### The mathematical reading -/

namespace Mix

section Ring

variable [Ring R] [DecidableEq R]

/-- The elements of a variable, 0 where none is stored, are those of its mathematical reading; a zero matrix stores none. -/
structure Reads (v : Val R) (m : MVal R) : Prop where
  rows : m.rows = v.rows
  cols : m.cols = v.cols
  elem : ∀ i j, i < v.rows → j < v.cols → (v.elem i j).getD 0 = m.elem i j
  none : v.kind = .zero → ∀ i j, i < v.rows → j < v.cols → v.elem i j = none
  some : v.kind = .dense → ∀ i j, i < v.rows → j < v.cols → ∃ a, v.elem i j = some a

def ReadsAll (E : Env R) (F : MEnv R) : Prop :=
  ∀ x, match E x with
    | some v => ∃ m, F x = some m ∧ Reads v m
    | none => F x = none

theorem ReadsAll.get {E : Env R} {F : MEnv R} (h : ReadsAll E F) {x : Nat} {v : Val R} (hx : E x = some v) :
    ∃ m, F x = some m ∧ Reads v m := by
  have := h x
  rw [hx] at this
  exact this

theorem ReadsAll.put {E : Env R} {F : MEnv R} (h : ReadsAll E F) (x : Nat) {v : Val R} {m : MVal R} (hv : Reads v m) :
    ReadsAll (E.put x v) (F.put x m) := by
  intro y
  unfold Env.put MEnv.put
  by_cases hy : y = x
  · simp only [hy, if_true]
    exact ⟨m, rfl, hv⟩
  · simp only [hy, if_false]
    exact h y

theorem join_getD_add (a b : Option R) : (joinStored (· + ·) id a b).getD 0 = a.getD 0 + b.getD 0 := by
  cases a <;> cases b <;> simp [joinStored]

theorem join_getD_sub (a b : Option R) : (joinStored (· - ·) (- ·) a b).getD 0 = a.getD 0 - b.getD 0 := by
  cases a <;> cases b <;> simp [joinStored]

theorem join_zero {ka kb : Kind} (h : ka.join kb = .zero) : ka = .zero ∧ kb = .zero := by
  cases ka <;> cases kb <;> first | exact ⟨rfl, rfl⟩ | cases h

theorem join_dense {ka kb : Kind} (h : ka.join kb = .dense) : ka = .dense ∨ kb = .dense := by
  cases ka <;> cases kb <;> first | exact .inl rfl | exact .inr rfl | cases h

theorem prod_zero {ka kb : Kind} (h : ka.prod kb = .zero) : ka = .zero ∨ kb = .zero := by
  cases ka <;> cases kb <;> first | exact .inl rfl | exact .inr rfl | cases h

theorem dotStored_sum (f g : Nat → Nat → Option R) (k i j : Nat) :
    dotStored f g k i j = ∑ l ∈ Finset.range k, (f i l).getD 0 * (g l j).getD 0 := by
  induction k with
  | zero => rfl
  | succ k ih =>
    rw [Sparse.dotStored_succ, Finset.sum_range_succ, ← ih]
    cases f i k <;> cases g k j <;> simp [mulAdd]

theorem keep_getD {k : Kind} {x : R} (h : k = .zero → x = 0) : (keep k x).getD 0 = x := by
  cases k with
  | dense => rfl
  | sparse =>
    unfold keep
    by_cases hx : x = 0 <;> simp [hx]
  | zero => exact (h rfl).symm

theorem math_reads {E E' : Env R} {F : MEnv R} (h : ReadsAll E F) {t : Stmt R} (ht : means E t = some E') :
    ∃ F', math F t = some F' ∧ ReadsAll E' F' := by
  cases t with
  | new x r c v =>
    cases ht
    exact ⟨_, rfl, h.put x ⟨rfl, rfl, fun _ _ _ _ => rfl, nofun, fun _ _ _ _ _ => ⟨v, rfl⟩⟩⟩
  | zero x r c =>
    cases ht
    exact ⟨_, rfl, h.put x ⟨rfl, rfl, fun _ _ _ _ => rfl, fun _ _ _ _ _ => rfl, nofun⟩⟩
  | set x i j v =>
    simp only [means] at ht
    split at ht
    · rename_i a ha
      split at ht
      · rename_i hc
        cases ht
        obtain ⟨m, em, hm⟩ := h.get ha
        rw [math, em]
        refine ⟨_, rfl, ?_⟩
        refine h.put x ⟨hm.rows, hm.cols, fun k l hk hl => ?_, fun h0 => ?_, fun _ k l hk hl => ?_⟩
        · have := hm.elem k l hk hl
          dsimp only
          split
          · rfl
          · exact this
        · dsimp only at h0; rw [hc.1] at h0; cases h0
        · dsimp only
          split
          · exact ⟨v, rfl⟩
          · exact hm.some hc.1 k l hk hl
      · cases ht
    · cases ht
  | sparse x y chk =>
    simp only [means] at ht
    split at ht
    · rename_i a ha
      split at ht
      · rename_i hc
        cases ht
        obtain ⟨m, em, hm⟩ := h.get ha
        rw [math, em]
        refine ⟨_, rfl, ?_⟩
        refine h.put x ⟨hm.rows, hm.cols, fun k l hk hl => ?_, nofun, nofun⟩
        have := hm.elem k l hk hl
        obtain ⟨v, hv⟩ := hm.some hc k l hk hl
        dsimp only
        rw [hv] at this ⊢
        simp only [Option.getD_some] at this
        rw [← this]
        by_cases hch : chk v <;> simp [hch, Option.filter]
      · cases ht
    · cases ht
  | dense x y =>
    simp only [means] at ht
    split at ht
    · rename_i a ha
      cases ht
      obtain ⟨m, em, hm⟩ := h.get ha
      rw [math, em]
      refine ⟨_, rfl, ?_⟩
      exact h.put x ⟨hm.rows, hm.cols, hm.elem, nofun, fun _ _ _ _ _ => ⟨_, rfl⟩⟩
    · cases ht
  | toZero x y =>
    simp only [means] at ht
    split at ht
    · rename_i a ha
      cases ht
      obtain ⟨m, em, hm⟩ := h.get ha
      rw [math, em]
      refine ⟨_, rfl, ?_⟩
      exact h.put x ⟨hm.rows, hm.cols, fun _ _ _ _ => rfl, fun _ _ _ _ _ => rfl, nofun⟩
    · cases ht
  | copy x y =>
    simp only [means] at ht
    split at ht
    · rename_i a ha
      cases ht
      obtain ⟨m, em, hm⟩ := h.get ha
      rw [math, em]
      refine ⟨_, rfl, ?_⟩
      exact h.put x hm
    · cases ht
  | add x y z =>
    simp only [means] at ht
    split at ht
    · rename_i a b ha hb
      split at ht
      · rename_i hc
        cases ht
        obtain ⟨m, em, hm⟩ := h.get ha
        obtain ⟨n, en, hn⟩ := h.get hb
        rw [math, em, en]
        refine ⟨_, rfl, ?_⟩
        refine h.put x ⟨hm.rows, hm.cols, fun i j hi hj => ?_, fun h0 i j hi hj => ?_, fun h0 i j hi hj => ?_⟩
        · show (joinStored (· + ·) id (a.elem i j) (b.elem i j)).getD 0 = _
          rw [join_getD_add, hm.elem i j hi hj, hn.elem i j (hc.1 ▸ hi) (hc.2 ▸ hj)]
        · obtain ⟨h1, h2⟩ := join_zero h0
          dsimp only
          rw [hm.none h1 i j hi hj, hn.none h2 i j (hc.1 ▸ hi) (hc.2 ▸ hj)]
          rfl
        · dsimp only
          rcases join_dense h0 with h1 | h1
          · obtain ⟨v, hv⟩ := hm.some h1 i j hi hj
            rw [hv]
            cases b.elem i j <;> exact ⟨_, rfl⟩
          · obtain ⟨v, hv⟩ := hn.some h1 i j (hc.1 ▸ hi) (hc.2 ▸ hj)
            rw [hv]
            cases a.elem i j <;> exact ⟨_, rfl⟩
      · cases ht
    · cases ht
  | sub x y z =>
    simp only [means] at ht
    split at ht
    · rename_i a b ha hb
      split at ht
      · rename_i hc
        cases ht
        obtain ⟨m, em, hm⟩ := h.get ha
        obtain ⟨n, en, hn⟩ := h.get hb
        rw [math, em, en]
        refine ⟨_, rfl, ?_⟩
        refine h.put x ⟨hm.rows, hm.cols, fun i j hi hj => ?_, fun h0 i j hi hj => ?_, fun h0 i j hi hj => ?_⟩
        · show (joinStored (· - ·) (- ·) (a.elem i j) (b.elem i j)).getD 0 = _
          rw [join_getD_sub, hm.elem i j hi hj, hn.elem i j (hc.1 ▸ hi) (hc.2.1 ▸ hj)]
        · obtain ⟨h1, h2⟩ := join_zero h0
          dsimp only
          rw [hm.none h1 i j hi hj, hn.none h2 i j (hc.1 ▸ hi) (hc.2.1 ▸ hj)]
          rfl
        · dsimp only
          rcases join_dense h0 with h1 | h1
          · obtain ⟨v, hv⟩ := hm.some h1 i j hi hj
            rw [hv]
            cases b.elem i j <;> exact ⟨_, rfl⟩
          · obtain ⟨v, hv⟩ := hn.some h1 i j (hc.1 ▸ hi) (hc.2.1 ▸ hj)
            rw [hv]
            cases a.elem i j <;> exact ⟨_, rfl⟩
      · cases ht
    · cases ht
  | addTo x y =>
    simp only [means] at ht
    split at ht
    · rename_i a b ha hb
      split at ht
      · rename_i hc
        cases ht
        obtain ⟨m, em, hm⟩ := h.get ha
        obtain ⟨n, en, hn⟩ := h.get hb
        rw [math, em, en]
        refine ⟨_, rfl, ?_⟩
        refine h.put x ⟨hm.rows, hm.cols, fun i j hi hj => ?_, fun h0 => ?_, fun _ i j hi hj => ?_⟩
        · obtain ⟨v, hv⟩ := hm.some hc.2.2 i j hi hj
          have h1 := hm.elem i j hi hj
          have h2 := hn.elem i j (hc.1 ▸ hi) (hc.2.1 ▸ hj)
          dsimp only
          rw [hv] at h1 ⊢
          rw [← h1, ← h2]
          cases b.elem i j <;> simp [inPlace]
        · dsimp only at h0; rw [hc.2.2] at h0; cases h0
        · obtain ⟨v, hv⟩ := hm.some hc.2.2 i j hi hj
          dsimp only
          rw [hv]
          cases b.elem i j <;> exact ⟨_, rfl⟩
      · cases ht
    · cases ht
  | subFrom x y =>
    simp only [means] at ht
    split at ht
    · rename_i a b ha hb
      split at ht
      · rename_i hc
        cases ht
        obtain ⟨m, em, hm⟩ := h.get ha
        obtain ⟨n, en, hn⟩ := h.get hb
        rw [math, em, en]
        refine ⟨_, rfl, ?_⟩
        refine h.put x ⟨hm.rows, hm.cols, fun i j hi hj => ?_, fun h0 => ?_, fun _ i j hi hj => ?_⟩
        · obtain ⟨v, hv⟩ := hm.some hc.2.2 i j hi hj
          have h1 := hm.elem i j hi hj
          have h2 := hn.elem i j (hc.1 ▸ hi) (hc.2.1 ▸ hj)
          dsimp only
          rw [hv] at h1 ⊢
          rw [← h1, ← h2]
          cases b.elem i j <;> simp [inPlace]
        · dsimp only at h0; rw [hc.2.2] at h0; cases h0
        · obtain ⟨v, hv⟩ := hm.some hc.2.2 i j hi hj
          dsimp only
          rw [hv]
          cases b.elem i j <;> exact ⟨_, rfl⟩
      · cases ht
    · cases ht
  | mul x y z =>
    simp only [means] at ht
    split at ht
    · rename_i a b ha hb
      split at ht
      · rename_i hc
        cases ht
        obtain ⟨m, em, hm⟩ := h.get ha
        obtain ⟨n, en, hn⟩ := h.get hb
        rw [math, em, en]
        refine ⟨_, rfl, ?_⟩
        refine h.put x ⟨hm.rows, hn.cols, fun i j hi hj => ?_, fun h0 i j hi hj => ?_, fun h0 i j hi hj => ?_⟩
        · have hs : dotStored a.elem b.elem a.cols i j = ∑ l ∈ Finset.range m.cols, m.elem i l * n.elem l j := by
            rw [dotStored_sum, hm.cols]
            refine Finset.sum_congr rfl fun l hl => ?_
            have hl := Finset.mem_range.1 hl
            rw [hm.elem i l hi hl, hn.elem l j (hc ▸ hl) hj]
          show (keep (a.kind.prod b.kind) (dotStored a.elem b.elem a.cols i j)).getD 0 = _
          rw [keep_getD, hs]
          intro h0
          rcases prod_zero h0 with h1 | h1
          · exact dotStored_left fun l hl => hm.none h1 i l hi hl
          · exact dotStored_right fun l hl => hn.none h1 l j (hc ▸ hl) hj
        · dsimp only at h0 ⊢
          rw [h0]
          rfl
        · dsimp only at h0 ⊢
          rw [h0]
          exact ⟨_, rfl⟩
      · cases ht
    · cases ht
  | trans x y =>
    simp only [means] at ht
    split at ht
    · rename_i a ha
      split at ht
      · cases ht
        obtain ⟨m, em, hm⟩ := h.get ha
        rw [math, em]
        refine ⟨_, rfl, ?_⟩
        exact h.put x ⟨hm.cols, hm.rows, fun i j hi hj => hm.elem j i hj hi,
          fun h0 i j hi hj => hm.none h0 j i hj hi, fun h0 i j hi hj => hm.some h0 j i hj hi⟩
      · cases ht
    · cases ht
  | drop x =>
    simp only [means] at ht
    split at ht
    · rename_i a ha
      cases ht
      obtain ⟨m, em, hm⟩ := h.get ha
      refine ⟨_, by rw [math, em]; rfl, fun y => ?_⟩
      by_cases hy : y = x
      · simp only [hy, if_true]
      · simp only [hy, if_false]
        exact h y
    · cases ht

theorem mathRun_reads (prog : List (Stmt R)) {E E' : Env R} {F : MEnv R} (h : ReadsAll E F) (ht : meaning prog E = some E') :
    ∃ F', mathRun prog F = some F' ∧ ReadsAll E' F' := by
  induction prog generalizing E F with
  | nil => cases ht; exact ⟨F, rfl, h⟩
  | cons t ts ih =>
    simp only [meaning] at ht
    cases hE : means E t with
    | none => rw [hE] at ht; cases ht
    | some E1 =>
      rw [hE] at ht
      obtain ⟨F1, e1, h1⟩ := math_reads h hE
      obtain ⟨F2, e2, h2⟩ := ih h1 ht
      exact ⟨F2, by simp only [mathRun, e1, Option.bind_some, e2], h2⟩

end Ring

end Mix

open Mix in
/-- C118: over a ring, a program that has a meaning runs without failure, and every variable, converted to a dense matrix, is the
matrix that the mathematical reading of the program gives, whatever the types of the variables. -/
theorem C118_mathematical [Ring R] [DecidableEq R] (prog : List (Stmt R)) (E : Env R) (h : meaning prog (fun _ => none) = some E) :
    ∃ s F, run prog (fun _ => none) = .ok s ∧ mathRun prog (fun _ => none) = some F ∧ ∀ x,
      (F x = none → s x = none) ∧
      ∀ m, F x = some m → ∃ M D, s x = some M ∧ M.rows = m.rows ∧ M.cols = m.cols ∧ Mat.denseOf M = .ok D ∧
        ∀ i j, i < m.rows → j < m.cols → D.get i j = .ok (m.elem i j) := by
  obtain ⟨s, e, hs⟩ := C118_programs add_comm prog E h
  obtain ⟨F, eF, hF⟩ := mathRun_reads prog (E := fun _ => none) (F := fun _ => none) (fun _ => rfl) h
  refine ⟨s, F, e, eF, fun x => ?_⟩
  have hx := hF x
  cases hE : E x with
  | none =>
    rw [hE] at hx
    exact ⟨fun _ => (hs x).1 hE, fun m hm => by rw [show F x = none from hx] at hm; cases hm⟩
  | some v =>
    rw [hE] at hx
    obtain ⟨m, em, hm⟩ := hx
    obtain ⟨M, D, e1, -, e3, e4, -, e6, e7⟩ := (hs x).2 v hE
    refine ⟨fun h0 => (by rw [em] at h0; cases h0), fun m' hm' => ?_⟩
    rw [em] at hm'
    cases hm'
    exact ⟨M, D, e1, by rw [e3, hm.rows], by rw [e4, hm.cols], e6, fun i j hi hj => by
      rw [hm.rows] at hi
      rw [hm.cols] at hj
      rw [e7 i j hi hj, hm.elem i j hi hj]⟩

open Mix in
/-- C118, operations without a meaning: `+=` and `-=` on a sparse variable throw, whatever is added, except a zero matrix. -/
theorem C118_sparse_in_place_throws [Zero R] [Add R] [Sub R] [Neg R] [Mul R] [DecidableEq R] (s : State R) (x y : Nat) (A : Sparse R)
    (hx : s x = some (.sparse A)) :
    (∀ B, s y = some (.sparse B) → step s (.addTo x y) = .error (.throw "4 not yet implemented.")) ∧
    (∀ B, s y = some (.dense B) → step s (.addTo x y) = .error (.throw "5 not yet implemented.")) ∧
    (∀ B, s y = some (.sparse B) → step s (.subFrom x y) = .error (.throw "4 not yet implemented.")) ∧
    (∀ B, s y = some (.dense B) → step s (.subFrom x y) = .error (.throw "5 not yet implemented.")) := by
  refine ⟨fun B hy => ?_, fun B hy => ?_, fun B hy => ?_, fun B hy => ?_⟩ <;>
    simp [step, inPlaceStep, State.get, hx, hy, SMat.binassign, Sparse.binassignSS, Sparse.binassignSD, bind_error']

/-- A program with all types: a 2x2 dense matrix, its sparse version, sums and products of both, in-place operations, transposition. -/
def exMix : List (Mix.Stmt Int) :=
  [.new 0 2 2 3, .set 0 0 1 0, .set 0 1 0 7, .sparse 1 0 (fun v => v != 0), .trans 2 1, .add 3 1 2, .sub 4 3 1, .mul 5 1 2, .mul 6 1 0,
   .addTo 0 1, .subFrom 0 0, .zero 7 2 2, .mul 8 7 0, .add 9 7 1, .sub 10 6 7, .dense 11 4, .toZero 12 5, .copy 0 11, .drop 3]

open Mix in
example : ∃ E, meaning exMix (fun _ => none) = some E ∧
    (E 5).map (fun v => (v.kind, v.elem 0 0, v.elem 0 1, v.elem 1 0, v.elem 1 1)) = some (.sparse, some 9, some 21, some 21, some 58) ∧
    (E 4).map (fun v => (v.kind, v.elem 0 0, v.elem 0 1, v.elem 1 0, v.elem 1 1)) = some (.sparse, some 3, some 7, some 0, some 3) ∧
    (E 8).map (fun v => (v.kind, v.elem 0 0)) = some (.zero, none) ∧
    (E 0).map (fun v => (v.kind, v.elem 1 0, v.elem 0 1)) = some (.dense, some 0, some 7) ∧ (E 3).isNone = true :=
  ⟨_, rfl, rfl, rfl, rfl, rfl, rfl⟩

end BB
