import Verif.Model.StorageEq
import Verif.Props.Storage

/-!
# C114: what `==` of two matrices says
-/

namespace BB

open Own

variable {R : Type}

namespace Own

theorem Obj.same_iff {o p : Obj} : o.same p = true ↔ o = p := by
  cases o; cases p
  simp [Obj.same, and_assoc]

theorem World.same_eq {w : World R} {x y : Nat} {o p : Obj} (hx : w.obj x = some o) (hy : w.obj y = some p) :
    w.same x y = .ok (o.same p) := by
  simp [World.same, World.get, hx, hy]

/-- `==` holds exactly when the two objects have the same members. -/
theorem World.same_true {w : World R} {x y : Nat} : w.same x y = .ok true ↔ ∃ o, w.obj x = some o ∧ w.obj y = some o := by
  constructor
  · intro h
    cases hx : w.obj x with
    | none => simp [World.same, World.get, hx] at h
    | some o =>
      cases hy : w.obj y with
      | none => simp [World.same, World.get, hx, hy] at h
      | some p =>
        rw [World.same_eq hx hy] at h
        injection h with h
        rw [Obj.same_iff] at h
        exact ⟨o, rfl, by rw [h]⟩
  · rintro ⟨o, hx, hy⟩
    rw [World.same_eq hx hy, Obj.same_iff.2 rfl]

end Own

/-- C114: `==` of live storages never fails and is an equivalence relation. -/
theorem C114_equivalence (w : World R) :
    (∀ x, w.obj x ≠ none → w.same x x = .ok true) ∧
    (∀ x y, w.obj x ≠ none → w.obj y ≠ none → ∃ b, w.same x y = .ok b ∧ w.same y x = .ok b) ∧
    (∀ x y z, w.same x y = .ok true → w.same y z = .ok true → w.same x z = .ok true) := by
  refine ⟨?_, ?_, ?_⟩
  · intro x hx
    obtain ⟨o, ho⟩ := Option.ne_none_iff_exists'.1 hx
    exact World.same_true.2 ⟨o, ho, ho⟩
  · intro x y hx hy
    obtain ⟨o, ho⟩ := Option.ne_none_iff_exists'.1 hx
    obtain ⟨p, hp⟩ := Option.ne_none_iff_exists'.1 hy
    refine ⟨o.same p, World.same_eq ho hp, ?_⟩
    rw [World.same_eq hp ho, Bool.eq_iff_iff.2 (Obj.same_iff.trans (eq_comm.trans Obj.same_iff.symm))]
  · intro x y z h1 h2
    obtain ⟨o, hx, hy⟩ := World.same_true.1 h1
    obtain ⟨p, hy', hz⟩ := World.same_true.1 h2
    rw [hy] at hy'; cases hy'
    exact World.same_true.2 ⟨o, hx, hz⟩

/-- C114, part that holds: after any history, dense matrices that compare equal have the same dimension and read the same
elements.  (Missing: the converse, see `C114_copy_differs`.) -/
theorem C114_equal_means_equal_partial (w : World R) (hw : Reach w) (A B : DenseM) (h : w.sameDense A B = .ok true) :
    A.dim.rows = B.dim.rows ∧ A.dim.cols = B.dim.cols ∧ w.contents A.st = w.contents B.st ∧ w.contents A.st ≠ none := by
  unfold World.sameDense at h
  cases hs : w.same A.st B.st with
  | error e => rw [hs] at h; simp at h
  | ok b =>
    rw [hs] at h
    simp only [bind_ok', pure_ok'] at h
    injection h with h
    simp only [Bool.and_eq_true, beq_iff_eq] at h
    obtain ⟨rfl, h1, h2⟩ := h
    obtain ⟨o, hA, hB⟩ := World.same_true.1 hs
    obtain ⟨cs, e, -⟩ := cells_ok hw.inv hA
    exact ⟨h1, h2, by simp [World.contents, hA, hB], by simp [World.contents, hA, e, Except.toOption]⟩

/-- C114, the same for sparse matrices: offsets, keys and values read the same. -/
theorem C114_sparse_equal_means_equal_partial (w : World R) (hw : Reach w) (A B : SparseM) (h : w.sameSparse A B = .ok true) :
    A.dim.rows = B.dim.rows ∧ A.dim.cols = B.dim.cols ∧ w.contents A.offset = w.contents B.offset ∧
      w.contents A.key = w.contents B.key ∧ w.contents A.value = w.contents B.value := by
  have key : ∀ x y, w.same x y = .ok true → w.contents x = w.contents y := by
    intro x y e
    obtain ⟨o, hx, hy⟩ := World.same_true.1 e
    simp [World.contents, hx, hy]
  unfold World.sameSparse at h
  rcases e1 : w.same A.offset B.offset with e | b1
  · rw [e1] at h; simp at h
  rw [e1] at h
  cases b1
  · simp at h
  rcases e2 : w.same A.key B.key with e | b2
  · rw [e2] at h; simp at h
  rw [e2] at h
  cases b2
  · simp at h
  rcases e3 : w.same A.value B.value with e | b3
  · rw [e3] at h; simp at h
  rw [e3] at h
  cases b3
  · simp at h
  simp only [bind_ok', Bool.not_true, Bool.false_eq_true, if_false, pure_ok'] at h
  injection h with h
  simp only [Bool.and_eq_true, beq_iff_eq] at h
  exact ⟨h.1, h.2, key _ _ e1, key _ _ e2, key _ _ e3⟩

/-- C114: a matrix that owns its array is equal to no other matrix, whatever the two hold. -/
theorem C114_owner_equals_only_itself (w : World R) (hw : Reach w) (A B : DenseM) (o p : Obj) (b : Nat) (hAB : A.st ≠ B.st)
    (hA : w.obj A.st = some o) (hB : w.obj B.st = some p) (hown : o.own = true) (hdata : o.data = some b) :
    w.sameDense A B = .ok false ∧ w.diffDense A B = .ok true ∧ w.sameDense B A = .ok false ∧ w.diffDense B A = .ok true := by
  have hne : o ≠ p := by
    rintro rfl
    exact C06_owner_is_exclusive w hw A.st B.st o o b hAB hA hB hown hdata hdata
  have h1 : o.same p = false := by rw [Bool.eq_false_iff]; exact fun h => hne (Obj.same_iff.1 h)
  have h2 : p.same o = false := by rw [Bool.eq_false_iff]; exact fun h => hne (Obj.same_iff.1 h).symm
  simp [World.diffDense, World.sameDense, World.same_eq hA hB, World.same_eq hB hA, h1, h2]

/-- C114, negative, for every history and every matrix: a copy has the dimension and the elements of the original and is
reported to be different from it. -/
theorem C114_copy_differs (w : World R) (hw : Reach w) (x y : Nat) (d : Dim) (hx : w.obj x = none) (hy : w.obj y ≠ none) :
    ∃ w', Own.step w (.copy x y) = .ok w' ∧ w'.contents x = w'.contents y ∧ w'.contents x ≠ none ∧
      w'.sameDense ⟨x, d⟩ ⟨y, d⟩ = .ok false ∧ w'.diffDense ⟨x, d⟩ ⟨y, d⟩ = .ok true := by
  obtain ⟨o, ho⟩ := Option.ne_none_iff_exists'.1 hy
  obtain ⟨w', e, hc, h1, h2, -⟩ := C07_copy_equal w hw x y o hx ho
  refine ⟨w', e, by rw [h1, h2], by rw [h1]; exact hc, ?_⟩
  have hxy : y ≠ x := by intro hc; subst hc; rw [hx] at ho; cases ho
  obtain ⟨cs, ec, -⟩ := cells_ok hw.inv ho
  have e' : w' = (w.alloc cs false).setObj x ⟨some w.next, o.size, o.own⟩ := by
    simp only [Own.step, get_ok ho, bind_ok', ec] at e
    rw [place_ok (w := w.alloc cs false) _ hx] at e
    injection e with e
    exact e.symm
  have hx' : w'.obj x = some ⟨some w.next, o.size, o.own⟩ := by rw [e']; simp [World.setObj]
  have hy' : w'.obj y = some o := by rw [e']; simpa [World.setObj, upd_ne _ _ hxy, World.alloc] using ho
  have hne : (⟨some w.next, o.size, o.own⟩ : Obj) ≠ o := by
    intro h
    have : o.data = some w.next := by rw [← h]
    exact absurd (hw.inv.data_lt ho this) (Nat.lt_irrefl _)
  have h3 : Obj.same ⟨some w.next, o.size, o.own⟩ o = false := by
    rw [Bool.eq_false_iff]; exact fun h => hne (Obj.same_iff.1 h)
  simp [World.diffDense, World.sameDense, World.same_eq hx' hy', h3]

/-- C114: two matrices constructed on the same memory of the caller with the same dimension compare equal, and still do after
any element is written through either of them. -/
theorem C114_proxies_equal (w : World R) (hw : Reach w) (x y b n : Nat) (d : Dim) (hxy : x ≠ y) (hx : w.obj x = none) (hy : w.obj y = none)
    (blk : Block R) (hb : w.heap b = some blk) (hu : blk.user = true) (hn : n ≤ blk.cells.length) :
    ∃ w', Own.run [.proxy x b n, .proxy y b n] w = .ok w' ∧ Reach w' ∧ w'.sameDense ⟨x, d⟩ ⟨y, d⟩ = .ok true ∧
      ∀ z i v w'', Adm w' (.write z i v) → Own.step w' (.write z i v) = .ok w'' → w''.sameDense ⟨x, d⟩ ⟨y, d⟩ = .ok true := by
  let w1 : World R := w.setObj x ⟨some b, n, false⟩
  let w2 : World R := w1.setObj y ⟨some b, n, false⟩
  have hy1 : w1.obj y = none := by simpa [w1, World.setObj, upd_ne _ _ (Ne.symm hxy)] using hy
  have e1 : Own.step w (.proxy x b n) = .ok w1 := place_ok _ hx
  have e2 : Own.step w1 (.proxy y b n) = .ok w2 := place_ok _ hy1
  have r1 : Reach w1 := hw.step (op := .proxy x b n) ⟨hx, blk, hb, hu, hn⟩ e1
  have r2 : Reach w2 := r1.step (op := .proxy y b n) ⟨hy1, blk, hb, hu, hn⟩ e2
  have ox : w2.obj x = some ⟨some b, n, false⟩ := by simp [w2, w1, World.setObj, upd_ne _ _ hxy]
  have oy : w2.obj y = some ⟨some b, n, false⟩ := by simp [w2, World.setObj]
  refine ⟨w2, by simp only [Own.run, e1, e2, bind_ok'], r2, ?_, ?_⟩
  · simp [World.sameDense, World.same_eq ox oy, Obj.same_iff.2 rfl]
  · intro z i v w'' _ e
    have hobj : w''.obj = w2.obj := by
      simp only [Own.step] at e
      rcases hz : w2.get z with er | o
      · rw [hz] at e; simp at e
      rw [hz] at e
      simp only [bind_ok'] at e
      split at e
      · cases e
      · split at e
        · split at e
          · injection e with e; rw [← e]
          · cases e
        · cases e
    rw [← hobj] at ox oy
    simp [World.sameDense, World.same_eq ox oy, Obj.same_iff.2 rfl]

/-- C114, negative, with concrete values: the same initial elements, `==` is false; and it becomes true only for proxies. -/
theorem C114_same_elements_differ :
    (do
      let w ← Own.run [.init 0 [1, 2], .init 1 [1, 2], .userAlloc [some (7 : Int)], .proxy 2 2 1, .proxy 3 2 1] World.init
      return (w.contents 0, w.contents 1, ← w.sameDense ⟨0, Dim.mk' 1 2⟩ ⟨1, Dim.mk' 1 2⟩, ← w.sameDense ⟨2, Dim.mk' 1 1⟩ ⟨3, Dim.mk' 1 1⟩)) =
      .ok (some [some 1, some 2], some [some 1, some 2], false, true) := rfl

/-- The hypotheses of `C114_owner_equals_only_itself` and `C114_copy_differs` are met. -/
example : ∃ w : World Int, Reach w ∧ ∃ o p, w.obj 0 = some o ∧ w.obj 1 = some p ∧ o.own = true ∧ o.data = some 0 ∧ w.obj 2 = none := by
  refine ⟨_, Reach.step (op := .copy 1 0) (Reach.step (op := .init 0 [1, 2]) Reach.init rfl rfl) ⟨rfl, by decide⟩ rfl, _, _, rfl, rfl, rfl, rfl, rfl⟩

/-- … and those of `C114_proxies_equal`. -/
example : ∃ (w : World Int) (blk : Block Int), Reach w ∧ w.obj 0 = none ∧ w.obj 1 = none ∧ w.heap 0 = some blk ∧ blk.user = true ∧ 2 ≤ blk.cells.length :=
  ⟨_, _, Reach.step (op := .userAlloc [some 1, some 2]) Reach.init trivial rfl, rfl, rfl, rfl, rfl, by decide⟩

end BB
