import Verif.Props.Shared
import Verif.Props.Blocked
import Verif.Props.Provider

/-! C74: moving blocked matrices. -/

namespace BB.Shared

variable {R : Type}

/-- Copying a non-empty block into an array without elements writes outside of it. -/
theorem copyInto_empty {S : Dense R} {r c : Nat} {g : Nat → Nat → R} (hS : S.Is r c g) (hr : 0 < r) (hc : 0 < c) (v : View) :
    copyInto S v [] = .error .ub := by
  unfold copyInto
  obtain ⟨n, rfl⟩ : ∃ n, r = n + 1 := ⟨r - 1, by omega⟩
  obtain ⟨m, rfl⟩ : ∃ m, c = m + 1 := ⟨c - 1, by omega⟩
  rw [hS.rows, rawLoop]
  apply BB.Provider.loopN_first
  rw [View.rowLoop hS.fits (by rw [hS.view_rows]; show 0 < n + 1; omega)]
  rw [show S.view.cols = m + 1 by rw [hS.view_rows]; rfl]
  rw [BB.Provider.loopN_first (e := .ub)]
  · rfl
  · have := hS.read (i := 0) (j := 0) (by omega) (by omega)
    rw [show S.data.read (S.view.base + S.view.pos 0 0) = .ok (g 0 0) by rw [hS.view_rows]; simpa [View.plain] using this]
    rfl

/-- C74, the part that holds: a move-assigned blocked matrix denotes what the source denoted, and converting it to
a dense matrix gives that matrix; a move-constructed one still has all its blocks. -/
theorem C74_move_partial [AddMonoid R] {B old : Blocked R} {rs cs : List Nat} {f : Nat → Nat → R} (hB : B.Is rs cs f) :
    (moveAssign old B).Is rs cs f ∧
    Sat (moveAssign old B).toDense (fun D => D.Is rs.sum cs.sum f) ∧
    ∀ i j, i < rs.length → j < cs.length → ∃ M, (moveConstruct B).grid.get i j = .ok M ∧
      M.Is (rs.getD i 0) (cs.getD j 0) (fun a b => f (offs rs i + a) (offs cs j + b)) := by
  refine ⟨hB, ?_, hB.blocks⟩
  exact (Blocked.toDense_sat hB).mono fun D h => h.2

/-- C74 is false for move construction: the unblocked dimensions are lost, so the conversion to a dense matrix
allocates nothing and writes outside of the allocation, for every blocked matrix whose first block has an element. -/
theorem C74_move_construct_is_wrong [AddMonoid R] {B : Blocked R} {rs cs : List Nat} {f : Nat → Nat → R} (hB : B.Is rs cs f)
    (hr : 0 < rs.getD 0 0) (hc : 0 < cs.getD 0 0) :
    (moveConstruct B).ubRows = 0 ∧ (moveConstruct B).ubCols = 0 ∧ (moveConstruct B).toDense = .error .ub := by
  refine ⟨rfl, rfl, ?_⟩
  have h1 : 0 < rs.length := by
    cases rs with
    | nil => simp at hr
    | cons => simp
  have h2 : 0 < cs.length := by
    cases cs with
    | nil => simp at hc
    | cons => simp
  obtain ⟨n, hn⟩ : ∃ n, rs.length = n + 1 := ⟨rs.length - 1, by omega⟩
  obtain ⟨m, hm⟩ : ∃ m, cs.length = m + 1 := ⟨cs.length - 1, by omega⟩
  obtain ⟨M, e, hM⟩ := hB.read h1 h2
  obtain ⟨S, eS, hS⟩ := Mat.toDense_sat hM
  unfold Blocked.toDense Blocks.toDenseWith
  simp only [moveConstruct]
  rw [hB.rows, hn, rawLoop]
  rw [BB.Provider.loopN_first (e := .ub)]
  · rfl
  · rw [View.rowLoop hB.fits (by rw [hB.view]; exact h1)]
    rw [show B.grid.view.cols = m + 1 by rw [hB.view]; exact hm]
    rw [BB.Provider.loopN_first (e := .ub)]
    · rfl
    · rw [e, bind_ok', eS, bind_ok']
      rw [show (Dense.new Ori.col 0 0 : Dense R).data = [] from rfl]
      rw [copyInto_empty hS.1 hr hc]
      rfl

/-- The product with a move-constructed factor has no unblocked rows either, so the loss spreads. -/
theorem C74_product_of_moved [Zero R] [Add R] [Mul R] [DecidableEq R] (A B C : Blocked R)
    (h : Blocked.mul (moveConstruct A) B = .ok C) : C.ubRows = 0 := by
  unfold Blocked.mul Blocks.mulWith at h
  simp only [] at h
  generalize hx : ptrLoop _ _ _ _ _ = x at h
  cases x with
  | error e => cases h
  | ok d => cases h; rfl

/-- Non-vacuity: a 1x1 blocked matrix with one 1x1 block. -/
example : (oneBlock 5).Is [1] [1] (fun _ _ => 5) := by
  refine ⟨rfl, rfl, rfl, rfl, rfl, rfl, ?_⟩
  intro i j hi hj
  have hi : i = 0 := by simpa using hi
  have hj : j = 0 := by simpa using hj
  subst hi; subst hj
  exact ⟨_, rfl, Dense.ofFn_is .col 1 1 (fun _ _ => (5 : Int)), rfl⟩

end BB.Shared
