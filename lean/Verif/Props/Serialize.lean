import Verif.Model.Serialize
import Verif.Lemmas.Norm

/-!
# C43: serialisation
-/

namespace BB

variable {R : Type}

theorem saveElems_map (l : List R) : saveElems (l.map some) = .ok (l.map Tok.elem) := by
  induction l with
  | nil => rfl
  | cons x l ih => simp only [List.map_cons, saveElems, ih, bind_ok', pure_ok']

theorem loadElems_map (l : List R) (rest : Archive R) : ∀ (i : Nat) (b : Buf R), b.length = i + l.length →
    loadElems l.length i b (l.map Tok.elem ++ rest) = (b.take i ++ l.map some, .ok rest) := by
  induction l with
  | nil => intro i b h; simp at h; subst h; simp [loadElems]
  | cons x l ih =>
    intro i b h
    simp only [List.length_cons] at h
    simp only [List.length_cons, List.map_cons, List.cons_append, loadElems]
    rw [ih (i + 1) _ (by simp; omega)]
    congr 1
    rw [List.take_add_one, List.getElem?_set_self (by omega), List.take_set_of_le (Nat.le_refl i)]
    simp

/-- The elements of a matrix, in storage order. -/
theorem Dense.Is.exists_data {A : Dense R} {r c : Nat} {f : Nat → Nat → R} (h : A.Is r c f) :
    ∃ l : List R, A.data = l.map some ∧ l.length = r * c :=
  ⟨_, h.data_eq, by simp⟩

theorem Dense.load_save {A B : Dense R} {r c : Nat} {f : Nat → Nat → R} (hA : A.Is r c f) (rest : Archive R) :
    ∃ ar, A.save = .ok ar ∧ B.load (ar ++ rest) = ({ A with ori := B.ori }, .ok rest) := by
  obtain ⟨l, hl, hn⟩ := hA.exists_data
  refine ⟨_, by unfold Dense.save; rw [hl, saveElems_map]; rfl, ?_⟩
  simp only [List.cons_append, Dense.load, List.length_map, hl]
  rw [loadElems_map l rest 0 _ (by simp [Buf.alloc])]
  simp [← hl]

/-- C43: saving any matrix succeeds; loading the archive – whatever follows in it – into an object of the same type,
whatever it held before, gives a matrix with the same dimensions and elements and leaves the rest of the archive
unread.  (Outside the claim: objects of the other orientation, `C62_load_other_orientation_is_wrong`; exceptions,
`C66_truncated_load_is_inconsistent`; submatrices, whose serialisation writes an address.) -/
theorem C43_round_trip (A B : Dense R) (r c : Nat) (f : Nat → Nat → R) (hA : A.Is r c f) (ho : B.ori = A.ori)
    (rest : Archive R) :
    ∃ ar B', A.save = .ok ar ∧ B.load (ar ++ rest) = (B', .ok rest) ∧ B'.Is r c f ∧ B'.ori = B.ori := by
  obtain ⟨ar, h1, h2⟩ := Dense.load_save (B := B) hA rest
  refine ⟨ar, _, h1, h2, ?_, rfl⟩
  rw [ho]
  exact hA

/-- C43: the same for any number of matrices of any shapes in one archive. -/
theorem C43_sequence (As Bs : List (Dense R)) (h : List.Forall₂ (fun A B => (∃ r c f, A.Is r c f) ∧ B.ori = A.ori) As Bs)
    (rest : Archive R) : ∃ ar, saveAll As = .ok ar ∧ loadAll Bs (ar ++ rest) = .ok (As, rest) := by
  induction h with
  | nil => exact ⟨[], rfl, rfl⟩
  | @cons A B As Bs hAB _ ih =>
    obtain ⟨⟨r, c, f, hA⟩, ho⟩ := hAB
    obtain ⟨ar2, hs, hl⟩ := ih
    obtain ⟨ar1, hs1, hl1⟩ := Dense.load_save (B := B) hA (ar2 ++ rest)
    refine ⟨ar1 ++ ar2, by simp only [saveAll, hs1, hs, bind_ok', pure_ok'], ?_⟩
    rw [List.append_assoc]
    simp only [loadAll, hl1, bind_ok', hl, pure_ok', ho]

/-- C62, negative: a square matrix loaded into an object of the other orientation arrives transposed, without any
error. -/
theorem C62_load_other_orientation_transposes (A B : Dense R) (n : Nat) (f : Nat → Nat → R) (hA : A.Is n n f) (ho : B.ori ≠ A.ori)
    (rest : Archive R) :
    ∃ ar B', A.save = .ok ar ∧ B.load (ar ++ rest) = (B', .ok rest) ∧ B'.Is n n (fun i j => f j i) := by
  obtain ⟨ar, h1, h2⟩ := Dense.load_save (B := B) hA rest
  refine ⟨ar, _, h1, h2, hA.rows, hA.cols, hA.size, hA.alloc, fun i j hi hj => ?_⟩
  have := hA.elems j i hj hi
  obtain ⟨o, d, b⟩ := A
  obtain ⟨o', d', b'⟩ := B
  have hr := hA.rows
  have hc := hA.cols
  simp only at hr hc ho
  cases o <;> cases o' <;> simp_all [Dense.get, Dense.view, View.plain, View.get, View.pos, assertThat, Nat.add_comm]

/-- C62, negative: a concrete case, so the claim fails for objects of the other orientation. -/
theorem C62_load_other_orientation_is_wrong :
    let f : Nat → Nat → Int := fun i j => 2 * i + j
    let A := Dense.ofFn .col 2 2 f
    ∃ ar, A.save = .ok ar ∧ ((Dense.empty .row).load ar).2 = .ok [] ∧
      ((Dense.empty .row).load ar).1.get 0 1 = .ok (f 1 0) ∧ f 1 0 ≠ f 0 1 := by
  refine ⟨[.size 2, .size 2, .size 4, .size 4, .elem 0, .elem 2, .elem 1, .elem 3], ?_⟩
  decide +kernel

/-- C43: an element that was never written cannot be saved. -/
theorem C43_uninitialised_is_ub (o : Ori) (r c : Nat) (h : 0 < r * c) : (Dense.new (R := R) o r c).save = .error .ub := by
  obtain ⟨n, hn⟩ : ∃ n, r * c = n + 1 := ⟨r * c - 1, by omega⟩
  simp only [Dense.save, Dense.new, Buf.alloc, hn, List.replicate_succ, saveElems, bind_error']

/-- C43, crash points: every proper prefix of the archive of a matrix makes `load` throw … -/
theorem C43_truncated_throws (A B : Dense R) (r c : Nat) (f : Nat → Nat → R) (hA : A.Is r c f) (ar : Archive R)
    (hs : A.save = .ok ar) (n : Nat) (hn : n < ar.length) : (B.load (ar.take n)).2 = .error inputError := by
  obtain ⟨l, hl, hlen⟩ := hA.exists_data
  have har : ar = .size A.dim.rows :: .size A.dim.cols :: .size A.dim.fullSize :: .size l.length :: l.map Tok.elem := by
    have : A.save = .ok (.size A.dim.rows :: .size A.dim.cols :: .size A.dim.fullSize :: .size l.length :: l.map Tok.elem) := by
      unfold Dense.save; rw [hl, saveElems_map]; simp
    exact (Except.ok.inj (hs.symm.trans this))
  subst har
  match n with
  | 0 => rfl
  | 1 => rfl
  | 2 => rfl
  | 3 => rfl
  | n + 4 =>
    simp only [List.take_succ_cons, Dense.load]
    have key : ∀ (l : List R) (n i : Nat) (b : Buf R), n < l.length →
        (loadElems l.length i b ((l.map Tok.elem).take n)).2 = .error inputError := by
      intro l
      induction l with
      | nil => intro n i b h; simp at h
      | cons x l ih =>
        intro n i b h
        cases n with
        | zero => rfl
        | succ n =>
          simp only [List.length_cons, List.map_cons, List.take_succ_cons, loadElems]
          exact ih n _ _ (by simpa using h)
    exact key l n 0 _ (by simpa using hn)

/-- C66, negative: … and can leave the target with the new dimensions but its old array, so that an in-range access
reads outside that array. -/
theorem C66_truncated_load_is_inconsistent :
    let A := Dense.ofFn .col 2 2 (fun i j => (2 * i + j : Int))
    ∃ ar n, A.save = .ok ar ∧ n < ar.length ∧
      let B := ((Dense.ofFn .col 1 1 (fun _ _ => (7 : Int))).load (ar.take n)).1
      B.dim.rows = 2 ∧ B.dim.cols = 2 ∧ B.get 1 1 = .error .ub := by
  refine ⟨[.size 2, .size 2, .size 4, .size 4, .elem 0, .elem 2, .elem 1, .elem 3], 3, ?_⟩
  decide +kernel

/-- Non-vacuity: a 2×3 matrix loaded over a 1×1 matrix. -/
example : ∃ ar, (Dense.ofFn .row 2 3 (fun i j => (10 * i + j : Int))).save = .ok ar ∧
    ((Dense.ofFn .row 1 1 (fun _ _ => (7 : Int))).load ar).1.get 1 2 = .ok 12 := by
  refine ⟨[.size 2, .size 3, .size 6, .size 6, .elem 0, .elem 1, .elem 2, .elem 10, .elem 11, .elem 12], ?_⟩
  decide +kernel

end BB
