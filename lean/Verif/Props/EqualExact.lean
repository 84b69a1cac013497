import Verif.Props.Cross
import Verif.Props.Spare

/-!
# C67, exactly: what `equal` of two sparse matrices answers
-/

namespace BB

variable {R : Type}

theorem offsets_length {L L' : List (List (Nat × R))}
    (h : (List.range (L.length + 1)).map (fun q => (L.take q).flatten.length) = (List.range (L'.length + 1)).map (fun q => (L'.take q).flatten.length)) :
    L.length = L'.length := by
  have := congrArg List.length h
  simpa using this

/-- C67, exactly: for two compressed matrices of any dimensions and orientations that store exactly what they report,
`equal` answers whether the same places of the runs (columns, or rows) are stored with values that agree within the
accuracy – neither the number of rows (columns, for row-major matrices), nor the orientation plays a part. -/
theorem C67_equal_exact [LinearOrder R] [AddCommGroup R] (a1 a2 : R) (A B : Sparse R) (r c r' c' : Nat) (L L' : List (List (Nat × R)))
    (hA : A.Valid r c L) (hB : B.Valid r' c' L') (tA : A.nnz = L.flatten.length) (tB : B.nnz = L'.flatten.length) :
    ∃ b, A.equal a1 a2 B = .ok b ∧ (b = true ↔ SameStored (max a1 a2) L L') := by
  by_cases hlen : L.length = L'.length
  · -- `equal` does not notice a change of dimensions and orientation
    have hA' : (⟨.col, Dim.mk' (max (A.ori.majorIx r c) (B.ori.majorIx r' c')) L.length, A.value, A.key, A.offset⟩ : Sparse R).Valid
        (max (A.ori.majorIx r c) (B.ori.majorIx r' c')) L.length L :=
      { rows := rfl, cols := rfl, size := rfl, runs := rfl, offsLen := hA.offsLen, offs := hA.offs, keyLen := hA.keyLen, cells := hA.cells
        bound := fun run hr e he => Nat.lt_of_lt_of_le (hA.bound run hr e he) (Nat.le_max_left _ _)
        sorted := hA.sorted }
    have hB' : (⟨.col, Dim.mk' (max (A.ori.majorIx r c) (B.ori.majorIx r' c')) L.length, B.value, B.key, B.offset⟩ : Sparse R).Valid
        (max (A.ori.majorIx r c) (B.ori.majorIx r' c')) L.length L' :=
      { rows := rfl, cols := rfl, size := rfl, runs := hlen.symm, offsLen := hB.offsLen, offs := hB.offs, keyLen := hB.keyLen, cells := hB.cells
        bound := fun run hr e he => Nat.lt_of_lt_of_le (hB.bound run hr e he) (Nat.le_max_right _ _)
        sorted := hB.sorted }
    have := C67_equal_partial a1 a2 _ _ _ _ L L' hA' hB' rfl tA tB
    exact this
  · obtain ⟨-, -, o1⟩ := hA.arrays tA
    obtain ⟨-, -, o2⟩ := hB.arrays tB
    unfold Sparse.equal
    rw [bufEqual_nat _ _ o1 o2, decide_eq_false (fun h => hlen (offsets_length h))]
    refine ⟨false, rfl, ⟨fun h => (nomatch h), fun h => absurd ?_ hlen⟩⟩
    exact List.Forall₂.length_eq h

/-- C67, so: two such matrices that store the same elements of their runs are equal also if their numbers of rows differ
(both column-major), or if one is the transpose of the other. -/
theorem C67_equal_is_wrong [LinearOrder R] [AddCommGroup R] [IsOrderedAddMonoid R] (a1 a2 : R) (h0 : 0 ≤ a1) (A B : Sparse R) (r c r' c' : Nat) (L : List (List (Nat × R)))
    (hA : A.Valid r c L) (hB : B.Valid r' c' L) (tA : A.nnz = L.flatten.length) (tB : B.nnz = L.flatten.length) :
    A.equal a1 a2 B = .ok true := by
  obtain ⟨b, e, hb⟩ := C67_equal_exact a1 a2 A B r c r' c' L L hA hB tA tB
  rw [e, hb.2]
  unfold SameStored
  refine List.forall₂_same.2 fun run _ => List.forall₂_same.2 fun x _ => ⟨rfl, ?_⟩
  rw [sub_self, abs_zero]
  exact le_max_of_le_left h0

/-- 1×3 row-major [0,7,0] and 2×1 column-major [0;7] differ in dimensions and orientation, and are equal. -/
example : (⟨.row, Dim.mk' 1 3, [some 7], [some 1], [some 0, some 1]⟩ : Sparse Int).equal 0 0
    ⟨.col, Dim.mk' 2 1, [some 7], [some 1], [some 0, some 1]⟩ = .ok true := by decide +kernel

theorem equalLoop_none [LinearOrder R] [AddCommGroup R] (a1 a2 : R) : ∀ (b1 b2 : Buf R) (p : Nat), b1[p]? = some none → equalLoop a1 a2 b1 b2 ≠ .ok true
  | [], _, p, h => by simp at h
  | _ :: _, [], _, _ => by simp [equalLoop]
  | none :: b1, y :: b2, _, _ => by cases y <;> simp [equalLoop]
  | some x :: b1, none :: b2, _, _ => by simp [equalLoop]
  | some x :: b1, some y :: b2, 0, h => by simp at h
  | some x :: b1, some y :: b2, p + 1, h => by
    rw [equalLoop]
    split
    · exact equalLoop_none a1 a2 b1 b2 p (by simpa using h)
    · simp

theorem equalLoop_self_none [LinearOrder R] [AddCommGroup R] [IsOrderedAddMonoid R] (a1 a2 : R) (h0 : 0 ≤ a1) : ∀ (b : Buf R) (p : Nat), b[p]? = some none → equalLoop a1 a2 b b = .error .ub
  | [], p, h => by simp at h
  | none :: b, _, _ => rfl
  | some x :: b, 0, h => by simp at h
  | some x :: b, p + 1, h => by
    rw [equalLoop, if_pos]
    · exact equalLoop_self_none a1 a2 h0 b p (by simpa using h)
    · rw [closeTo_iff, sub_self, abs_zero]; exact le_max_of_le_left h0

/-- C67, matrices with spare cells (sums, products: `C64_sum_exact`, `C64_product_exact`): such a matrix is never equal to
another one, and comparing it with itself is undefined. -/
theorem C67_spare_is_never_equal [LinearOrder R] [AddCommGroup R] (a1 a2 : R) (A B : Sparse R) (p : Nat)
    (hp : A.key[p]? = some none) (ho : ∀ x ∈ A.offset, x ≠ none) : A.equal a1 a2 B ≠ .ok true ∧ A.equal a1 a2 A = .error .ub := by
  have hp' : (A.key.map (Option.map (Nat.cast : Nat → Int)))[p]? = some none := by rw [List.getElem?_map, hp]; rfl
  constructor
  · unfold Sparse.equal
    intro e
    obtain ⟨x, e1, e⟩ := Own.bind_eq_ok e
    cases x with
    | false => simp at e
    | true =>
      simp only [if_true] at e
      obtain ⟨y, e2, e⟩ := Own.bind_eq_ok e
      cases y with
      | false => simp at e
      | true =>
        unfold bufEqual at e2
        split at e2
        · cases e2
        · exact equalLoop_none _ _ _ _ p hp' e2
  · obtain ⟨l, hl⟩ : ∃ l : List Nat, A.offset = l.map some := by
      refine ⟨A.offset.map fun x => x.getD 0, ?_⟩
      rw [List.map_map]
      conv_lhs => rw [← List.map_id A.offset]
      apply List.map_congr_left
      intro x hx
      cases x with
      | none => exact absurd rfl (ho _ hx)
      | some v => rfl
    unfold Sparse.equal
    rw [bufEqual_nat l l hl hl, decide_eq_true rfl, bind_ok', if_pos rfl]
    unfold bufEqual
    rw [if_neg (by simp), equalLoop_self_none _ _ (le_refl 0) _ p hp']; rfl

/-- The hypotheses can be met: the sum of a matrix with two elements with itself, six reported. -/
example : ∃ D, Sparse.binop (· + ·) id exSparse exSparse (Sparse.empty .col) = .ok D ∧ D.equal 0 0 D = .error .ub := by
  refine ⟨_, rfl, ?_⟩
  decide +kernel

end BB
