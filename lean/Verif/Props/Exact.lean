import Verif.Props.Cross
import Verif.Props.BlockedList

/-!
# Exactly when: C59, C66, C68

These claims are false of the code in general.  The theorems here say for every input what happens, so that nothing is left between
the part that holds and the counterexamples.
-/
namespace BB

variable {R : Type}

/-! ### C59 -/

/-- C59.  What an element of a view of a view is, for every view of a column-major matrix and every view of it that fits: the
library counts the columns of the inner view by the height of the outer one, so that element (i,j) is the element of the matrix at
the linear position obtained in this way. -/
theorem C59_elements (r c : Nat) (b : Buf R) (n1 m1 r1 c1 nr nc r2 c2 : Nat) (h1 : r1 + n1 ≤ r) (h2 : c1 + m1 ≤ c) (h3 : r2 + nr ≤ n1)
    (h4 : c2 + nc ≤ m1) (i j : Nat) (hi : i < nr) (hj : j < nc) :
    let M := View.plain .col r c
    let k := (r1 + r2 + i) + c1 * r + (c2 + j) * n1
    ((M.sub n1 m1 r1 c1).sub nr nc r2 c2).get b i j = M.get b (k % r) (k / r) := by
  intro M k
  have hr : 0 < r := by omega
  have hk : k < r * c := by
    have e1 : k ≤ (r - 1) + c1 * r + (c2 + j) * r := by
      have : (c2 + j) * n1 ≤ (c2 + j) * r := Nat.mul_le_mul_left _ (by omega)
      omega
    have e2 : (c1 + (c2 + j) + 1) * r ≤ c * r := Nat.mul_le_mul_right _ (by omega)
    have e3 : (c1 + (c2 + j) + 1) * r = c1 * r + (c2 + j) * r + r := by ring
    rw [Nat.mul_comm r c]
    omega
  have hkr : k % r < r := Nat.mod_lt _ hr
  have hkc : k / r < c := Nat.div_lt_of_lt_mul hk
  rw [View.get_eq (v := (M.sub n1 m1 r1 c1).sub nr nc r2 c2) hi hj, View.get_eq (v := M) hkr hkc]
  congr 1
  simp only [M, View.sub, View.plain, View.pos]
  have := Nat.mod_add_div k r
  have e : k % r + k / r * r = k := by rw [Nat.mul_comm (k / r) r]; exact this
  simp only [k] at e ⊢
  ring_nf at e ⊢
  omega

/-- C59, exactly when: a non-empty view of a view shows the right elements, whatever the matrix contains, if and only if the outer
view has all rows of the matrix or the inner one lies in the first column of the outer one. -/
theorem C59_iff (r c n1 m1 r1 c1 nr nc r2 c2 : Nat) (h1 : r1 + n1 ≤ r) (h2 : c1 + m1 ≤ c) (h3 : r2 + nr ≤ n1)
    (h4 : c2 + nc ≤ m1) (hnr : 0 < nr) (hnc : 0 < nc) :
    let M := View.plain .col r c
    (∀ b : Buf Nat, b.length = r * c → ∀ i j, i < nr → j < nc →
      ((M.sub n1 m1 r1 c1).sub nr nc r2 c2).get b i j = M.get b (r1 + (r2 + i)) (c1 + (c2 + j))) ↔ (n1 = r ∨ (c2 = 0 ∧ nc = 1)) := by
  intro M
  have hr : 0 < r := by omega
  constructor
  · intro h
    by_contra hc
    have hn : n1 < r := by
      by_contra hn
      exact hc (.inl (by omega))
    -- the last column of the inner view
    have hj : 0 < c2 + (nc - 1) := by
      by_contra h0
      exact hc (.inr (by omega))
    have key := h ((List.range (r * c)).map some) (by simp) 0 (nc - 1) hnr (by omega)
    rw [C59_elements r c _ n1 m1 r1 c1 nr nc r2 c2 h1 h2 h3 h4 0 (nc - 1) hnr (by omega)] at key
    have hv : ∀ a b, a < r → b < c → M.get ((List.range (r * c)).map some) a b = .ok (a + b * r) := by
      intro a b ha hb
      rw [View.get_eq (v := M) ha hb]
      apply Buf.read_ok.mpr
      have hlt : a + b * r < r * c := by
        have : (b + 1) * r ≤ c * r := Nat.mul_le_mul_right _ (by omega)
        rw [Nat.mul_comm r c]
        have e : (b + 1) * r = b * r + r := by ring
        omega
      simp only [M, View.plain, View.pos]
      have e : 0 + (a + b * r) = a + b * r := by omega
      simp [hlt]
    have hk : (r1 + r2 + 0) + c1 * r + (c2 + (nc - 1)) * n1 < r * c := by
      have e1 : (c2 + (nc - 1)) * n1 ≤ (c2 + (nc - 1)) * r := Nat.mul_le_mul_left _ (by omega)
      have e2 : (c1 + (c2 + (nc - 1)) + 1) * r ≤ c * r := Nat.mul_le_mul_right _ (by omega)
      have e3 : (c1 + (c2 + (nc - 1)) + 1) * r = c1 * r + (c2 + (nc - 1)) * r + r := by ring
      rw [Nat.mul_comm r c]
      omega
    rw [hv _ _ (Nat.mod_lt _ hr) (Nat.div_lt_of_lt_mul hk), hv _ _ (by omega) (by omega)] at key
    have key := Except.ok.inj key
    rw [Nat.mul_comm (_ / r) r, Nat.mod_add_div] at key
    have e1 : (c2 + (nc - 1)) * n1 < (c2 + (nc - 1)) * r := Nat.mul_lt_mul_of_pos_left hn hj
    have e2 : (c1 + (c2 + (nc - 1))) * r = c1 * r + (c2 + (nc - 1)) * r := by ring
    omega
  · intro h b hb i j hi hj
    rw [View.get_eq (v := (M.sub n1 m1 r1 c1).sub nr nc r2 c2) hi hj,
      View.get_eq (v := M) (show r1 + (r2 + i) < r by omega) (show c1 + (c2 + j) < c by omega)]
    congr 1
    simp only [M, View.sub, View.plain, View.pos]
    rcases h with rfl | ⟨rfl, rfl⟩
    · have : r1 = 0 := by omega
      subst this
      ring
    · have : j = 0 := by omega
      subst this
      simp only [Nat.zero_mul, Nat.add_zero]
      ring

/-- Both sides of C59_iff occur: a window of full height, a single column, and one where the claim fails. -/
example : ((View.plain .col 3 3).sub 2 2 1 0).sub 1 2 0 0 = ⟨.col, 1, 2, 2, 2, 1⟩ := rfl

/-! ### C66 -/

theorem loadElems_take (l : List R) : ∀ (m i : Nat) (b : Buf R), b.length = i + l.length →
    (loadElems l.length i b ((l.map Tok.elem).take m)).1 = b.take i ++ (l.map some).take m ++ b.drop (i + m) := by
  induction l with
  | nil =>
    intro m i b h
    simp only [List.length_nil, Nat.add_zero] at h
    simp [loadElems, ← h]
  | cons x l ih =>
    intro m i b h
    cases m with
    | zero =>
      simp [loadElems]
    | succ m =>
      simp only [List.length_cons, List.map_cons, List.take_succ_cons, loadElems]
      rw [ih m (i + 1) _ (by simp at h ⊢; omega)]
      have hi : i < b.length := by simp at h; omega
      rw [List.take_set, List.take_add_one, List.getElem?_eq_getElem hi, List.drop_set_of_lt (by omega)]
      have e : (b.take i ++ (some b[i]).toList).set i (some x) = b.take i ++ [some x] := by
        rw [List.set_append_right _ _ (by simp)]
        simp [Nat.min_eq_left (Nat.le_of_lt hi)]
      rw [e, show i + 1 + m = i + (m + 1) by omega]
      simp

/-- C66.  The state of a matrix into which a cut off archive was loaded, for every place at which it may be cut: rows, columns and
size come from the archive as far as it goes; the array is the old one unless all four numbers were read, and then it holds the
elements that were read, the rest being indeterminate. -/
theorem C66_truncated_load_exact (A B : Dense R) (r c : Nat) (f : Nat → Nat → R) (hA : A.Is r c f) (ar : Archive R)
    (hs : A.save = .ok ar) (n : Nat) :
    let C := (B.load (ar.take n)).1
    C.dim.rows = (if 1 ≤ n then r else B.dim.rows) ∧ C.dim.cols = (if 2 ≤ n then c else B.dim.cols) ∧
    C.dim.fullSize = (if 3 ≤ n then r * c else B.dim.fullSize) ∧
    C.data = if 4 ≤ n then A.data.take (n - 4) ++ List.replicate (r * c - (n - 4)) none else B.data := by
  obtain ⟨l, hl, hlen⟩ := hA.exists_data
  have har : ar = .size A.dim.rows :: .size A.dim.cols :: .size A.dim.fullSize :: .size l.length :: l.map Tok.elem := by
    have : A.save = .ok (.size A.dim.rows :: .size A.dim.cols :: .size A.dim.fullSize :: .size l.length :: l.map Tok.elem) := by
      unfold Dense.save; rw [hl, saveElems_map]; simp
    exact (Except.ok.inj (hs.symm.trans this))
  subst har
  rw [hA.rows, hA.cols, hA.size]
  match n with
  | 0 => exact ⟨rfl, rfl, rfl, rfl⟩
  | 1 => exact ⟨rfl, rfl, rfl, rfl⟩
  | 2 => exact ⟨rfl, rfl, rfl, rfl⟩
  | 3 => exact ⟨rfl, rfl, rfl, rfl⟩
  | n + 4 =>
    simp only [List.take_succ_cons, Dense.load]
    refine ⟨by simp, by simp, by simp, ?_⟩
    rw [loadElems_take l n 0 _ (by simp [Buf.alloc]), if_pos (by omega), hl]
    simp [Buf.alloc, hlen]

/-- C66, exactly when: the array of the target fits its dimensions afterwards if and only if nothing was read, all four numbers were
read, or the mixture of old and new dimensions happens to have as many elements as the old array. -/
theorem C66_consistent_iff (A B : Dense R) (r c r' c' : Nat) (f g : Nat → Nat → R) (hA : A.Is r c f) (hB : B.Is r' c' g) (ar : Archive R)
    (hs : A.save = .ok ar) (n : Nat) :
    let C := (B.load (ar.take n)).1
    C.data.length = C.dim.rows * C.dim.cols ↔
      (n = 0 ∨ 4 ≤ n ∨ (n = 1 ∧ r' * c' = r * c') ∨ (2 ≤ n ∧ r' * c' = r * c)) := by
  intro C
  obtain ⟨h1, h2, -, h4⟩ := C66_truncated_load_exact A B r c f hA ar hs n
  change C.dim.rows = _ at h1
  change C.dim.cols = _ at h2
  change C.data = _ at h4
  rw [h1, h2, h4]
  have hb : B.data.length = r' * c' := hB.alloc
  have ha : A.data.length = r * c := hA.alloc
  match n with
  | 0 => simp [hb, hB.rows, hB.cols]
  | 1 => simp [hb, hB.cols]
  | 2 => simp [hb]
  | 3 => simp [hb]
  | n + 4 => simp [ha]; omega

/-- The claim fails for a 1×1 matrix and an archive of a 2×2 matrix cut after three numbers, and holds if the matrix was 4×1. -/
example : ((Dense.ofFn .col 4 1 (fun _ _ => (7 : Int))).load [.size 2, .size 2]).1 = ⟨.col, ⟨2, 2, 4⟩, [some 7, some 7, some 7, some 7]⟩ := rfl

/-! ### C68 -/

/-- `x` succeeds with a result that satisfies `P`, or is undefined behaviour. -/
def OrUb {α : Type} (x : Res α) (P : α → Prop) : Prop := (∃ a, x = .ok a ∧ P a) ∨ x = .error .ub

theorem OrUb.bind {α β : Type} {x : Res α} {f : α → Res β} {P : α → Prop} {Q : β → Prop} (h : OrUb x P) (hf : ∀ a, P a → OrUb (f a) Q) :
    OrUb (x >>= f) Q := by
  rcases h with ⟨a, e, hp⟩ | e
  · rw [e]; exact hf a hp
  · rw [e]; exact .inr rfl

theorem OrUb.mono {α : Type} {x : Res α} {P Q : α → Prop} (h : OrUb x P) (hpq : ∀ a, P a → Q a) : OrUb x Q := by
  rcases h with ⟨a, e, hp⟩ | e
  · exact .inl ⟨a, e, hpq a hp⟩
  · exact .inr e

theorem OrUb.loop {σ : Type} {n : Nat} {f : Nat → σ → Res σ} {s : σ} (I : Nat → σ → Prop) (h0 : I 0 s)
    (hs : ∀ i s, i < n → I i s → OrUb (f i s) (I (i + 1))) : OrUb (loopN n f s) (I n) := by
  induction n with
  | zero => exact .inl ⟨s, rfl, h0⟩
  | succ n ih =>
    rw [loopN]
    exact (ih fun i s hi => hs i s (by omega)).bind fun a ha => hs n a (by omega) ha

/-- What a list of rows that makes a matrix needs. -/
theorem ofLists_needs (o : Ori) (first : List R) (rest : List (List R)) :
    OrUb (Dense.ofLists o (first :: rest)) (fun _ => ∀ (i : Nat) (row : List R), (first :: rest)[i]? = some row → first.length ≤ row.length) := by
  unfold Dense.ofLists
  refine OrUb.bind (P := fun _ => ∀ (i : Nat) (row : List R), i < rest.length + 1 → (first :: rest)[i]? = some row → first.length ≤ row.length) ?_ ?_
  · have hview : (Dense.new o (first :: rest).length first.length : Dense R).view = View.plain o (rest.length + 1) first.length := rfl
    rw [ptrLoop_eq _ (rest.length + 1) 0 _ 1 _ (by omega) (by simp [Dense.new, Dim.mk'])]
    refine OrUb.loop (fun k _ => ∀ (i : Nat) (row : List R), i < k → (first :: rest)[i]? = some row → first.length ≤ row.length) (fun i row hi => by omega) ?_
    intro i d hi hI
    have fit := View.plain_fits o (rest.length + 1) first.length
    rw [hview, Nat.mul_one, Nat.zero_add, View.rowLoop fit (show i < (View.plain o (rest.length + 1) first.length).rows from hi)]
    refine OrUb.bind (P := fun _ => ∀ row : List R, (first :: rest)[i]? = some row → first.length ≤ row.length) ?_ ?_
    · refine OrUb.mono (OrUb.loop (s := (0, d)) (fun j (t : Nat × Buf R) => t.1 = j ∧ ∀ row : List R, (first :: rest)[i]? = some row → j ≤ row.length)
        ⟨rfl, fun row _ => by omega⟩ ?_) ?_
      · rintro j ⟨q, d⟩ hj ⟨h1, h2⟩
        simp only at h1
        subst h1
        simp only
        cases e : ((first :: rest)[i]?).bind (fun row => row[q]?) with
        | none => exact .inr rfl
        | some x =>
          simp only
          have hq : ∀ row : List R, (first :: rest)[i]? = some row → q + 1 ≤ row.length := by
            intro row hrow
            rw [hrow, Option.bind_some] at e
            exact (List.getElem?_eq_some_iff.mp e).1
          refine OrUb.bind (P := fun _ => True) ?_ fun d' _ => .inl ⟨_, rfl, rfl, hq⟩
          unfold Buf.write
          split
          · exact .inl ⟨_, rfl, trivial⟩
          · exact .inr rfl
      · exact fun t ht => ht.2
    · intro d' h
      refine .inl ⟨_, rfl, fun k row hk hrow => ?_⟩
      by_cases hki : k = i
      · subst hki; exact h row hrow
      · exact hI k row (by omega) hrow
  · intro d h
    exact .inl ⟨_, rfl, fun i row hrow => h i row ((List.getElem?_eq_some_iff.mp hrow).1) hrow⟩

/-- C68, exactly when: a list of rows whose rows are at least as long as the first makes a matrix of the first's length, surplus
values being dropped without notice; if any row is shorter than the first, or there is none, the constructor is undefined
behaviour.  Never is a malformed list reported. -/
theorem C68_lists_exact [Inhabited R] (o : Ori) :
    Dense.ofLists (R := R) o [] = .error .ub ∧
    ∀ (first : List R) (rest : List (List R)),
      ((∀ row ∈ rest, first.length ≤ row.length) → ∃ A, Dense.ofLists o (first :: rest) = .ok A ∧ A.dim.rows = rest.length + 1 ∧
        A.dim.cols = first.length ∧ ∀ (i j : Nat) (row : List R) (x : R), i < rest.length + 1 → j < first.length → (first :: rest)[i]? = some row →
          row[j]? = some x → A.get i j = .ok x) ∧
      (¬ (∀ row ∈ rest, first.length ≤ row.length) → Dense.ofLists o (first :: rest) = .error .ub) := by
  refine ⟨rfl, fun first rest => ⟨fun h => ?_, fun h => ?_⟩⟩
  · obtain ⟨A, e, -, hA⟩ := C49_initializer_lists o first rest (fun i j => (((first :: rest)[i]?).bind (fun row => row[j]?)).getD default) h
      (by intro i j row x h1 h2; rw [h1, Option.bind_some, h2]; rfl)
    refine ⟨A, e, hA.rows, hA.cols, fun i j row x hi hj h1 h2 => ?_⟩
    have := hA.elems i j hi hj
    rw [h1, Option.bind_some, h2] at this
    exact this
  · rcases ofLists_needs o first rest with ⟨A, e, h'⟩ | e
    · exfalso
      apply h
      intro row hrow
      obtain ⟨i, hi, hr⟩ := List.getElem_of_mem hrow
      exact h' (i + 1) row (by rw [List.getElem?_cons_succ, List.getElem?_eq_getElem hi, hr])
    · exact e

end BB
