import Verif.Props.ConverterDefault

/-!
# C131: which setting governs which type

Threshold.h:16-36 and 98-181, MatrixConverter.h:13-25.  The limits are named here as a user names them in the settings, without the model's
table of them (`Settings.occ`).
-/

namespace BB.Limits

variable {R : Type}

/-- The share of elements with absolute value above `x`. -/
def share [LinearOrder R] [Neg R] [NatCast R] [Div R] (x : R) (r c : Nat) (f : Nat → Nat → R) : R := (countAbove x r c f : R) / ((r * c : Nat) : R)

/-- What the settings promise about a type: `large` is the share of the elements above the single-precision significance, `all` that of the
elements above the double-precision significance. -/
def Promised [LE R] (t : Settings R) (large all : R) : Kind → Prop
  | .zero => all ≤ t.zeroDouble ∧ large ≤ t.zeroSingle
  | .sparseF => all ≤ t.sparseFDouble ∧ large ≤ t.sparseFSingle
  | .denseF => all ≤ t.denseFDouble ∧ large ≤ t.denseFSingle
  | .sparseD => all ≤ t.sparseDDouble ∧ large ≤ t.sparseDSingle
  | .multSS => all ≤ t.multSSDouble ∧ large ≤ t.multSSSingle
  | .multSD => all ≤ t.multSDDouble ∧ large ≤ t.multSDSingle
  | .denseD => all ≤ t.denseDDouble ∧ large ≤ t.denseDSingle

/-- The order in which the types are tried (DynamicMatrixTypeList.h:27-35). -/
def order : List Kind := [.zero, .sparseF, .denseF, .sparseD, .multSS, .multSD, .denseD]

/-- `k` is the first type with property `P`. -/
def First (P : Kind → Prop) (k : Kind) : Prop := ∃ pre post, order = pre ++ k :: post ∧ P k ∧ ∀ k' ∈ pre, ¬ P k'

theorem First.unique {P : Kind → Prop} {k k' : Kind} (h : First P k) (h' : First P k') : k = k' := by
  obtain ⟨a, b, e, p, n⟩ := h
  obtain ⟨a', b', e', p', n'⟩ := h'
  rw [e] at e'
  rcases List.append_eq_append_iff.1 e' with ⟨x, rfl, hx⟩ | ⟨x, rfl, hx⟩
  · cases x with
    | nil => simp only [List.nil_append, List.cons.injEq] at hx; exact hx.1
    | cons y ys =>
      simp only [List.cons_append, List.cons.injEq] at hx
      exact absurd p (n' k (by simp [hx.1]))
  · cases x with
    | nil => simp only [List.nil_append, List.cons.injEq] at hx; exact hx.1.symm
    | cons y ys =>
      simp only [List.cons_append, List.cons.injEq] at hx
      exact absurd p' (n k' (by simp [hx.1]))

section

variable [Field R] [LinearOrder R] [IsStrictOrderedRing R]

theorem share_mono {x y : R} (h : x ≤ y) (r c : Nat) (f : Nat → Nat → R) : share y r c f ≤ share x r c f := by
  unfold share
  apply div_le_div_of_nonneg_right _ (by positivity)
  exact_mod_cast countAbove_mono h r c f

/-- C131, exactly: whatever the settings are (dense double must be allowed for everything, as it is by default), a block becomes the first type
whose limits are kept, where for the zero type only the double-precision limit counts, for all elements above the double-precision
significance. -/
theorem C131_exact (b : Build) (rnd : R → R) (hrnd : rnd 0 = 0) (t : Settings R)
    (A : Dense R) (nr nc r0 c0 r c : Nat) (f : Nat → Nat → R) (hs : (Src.sub A nr nc r0 c0).Is r c f)
    (hD : 0 ≤ t.sigDouble) (hDF : t.sigDouble < t.sigSingle) (h1 : 1 ≤ t.denseDDouble) (h2 : 1 ≤ t.denseDSingle) :
    ∃ k M, convertMatrix b rnd t (.sub A nr nc r0 c0) = .ok (k, M) ∧ k.Matches M ∧
      First (fun k => if k = .zero then share t.sigDouble r c f ≤ t.zeroDouble
        else Promised t (share t.sigSingle r c f) (share t.sigDouble r c f) k) k := by
  obtain ⟨pre, k, post, M, e1, e2, e3, e4, e5, -⟩ := C37_first_match b rnd hrnd t A nr nc r0 c0 r c f hs hD hDF h1 h2
  have key : ∀ k, Fulfils t r c f k ↔ (if k = .zero then share t.sigDouble r c f ≤ t.zeroDouble
        else Promised t (share t.sigSingle r c f) (share t.sigDouble r c f) k) := by
    intro k
    cases k with
    | zero => exact ⟨fun h => h.1, fun h => ⟨h, (share_mono hDF.le r c f).trans h⟩⟩
    | _ => rw [if_neg (by decide)]; exact Iff.rfl
  refine ⟨k, M, e2, e5, pre, post, e1, (key k).1 e3, fun k' hk' h => e4 k' hk' ((key k').2 h)⟩

/-- C131: if the single-precision limit of the zero type is not below its double-precision limit (both are 0 by default), a block becomes the
first type whose two limits, as named in the settings, are kept. -/
theorem C131_settings_partial (b : Build) (rnd : R → R) (hrnd : rnd 0 = 0) (t : Settings R)
    (A : Dense R) (nr nc r0 c0 r c : Nat) (f : Nat → Nat → R) (hs : (Src.sub A nr nc r0 c0).Is r c f)
    (hD : 0 ≤ t.sigDouble) (hDF : t.sigDouble < t.sigSingle) (h1 : 1 ≤ t.denseDDouble) (h2 : 1 ≤ t.denseDSingle) (hz : t.zeroDouble ≤ t.zeroSingle) :
    ∃ k M, convertMatrix b rnd t (.sub A nr nc r0 c0) = .ok (k, M) ∧ k.Matches M ∧
      First (Promised t (share t.sigSingle r c f) (share t.sigDouble r c f)) k := by
  obtain ⟨k, M, e1, e2, pre, post, e3, e4, e5⟩ := C131_exact b rnd hrnd t A nr nc r0 c0 r c f hs hD hDF h1 h2
  have key : ∀ k, (if k = .zero then share t.sigDouble r c f ≤ t.zeroDouble
        else Promised t (share t.sigSingle r c f) (share t.sigDouble r c f) k) ↔ Promised t (share t.sigSingle r c f) (share t.sigDouble r c f) k := by
    intro k
    cases k with
    | zero => exact ⟨fun h => ⟨h, (share_mono hDF.le r c f).trans (le_trans h hz)⟩, fun h => h.1⟩
    | _ => rw [if_neg (by decide)]
  exact ⟨k, M, e1, e2, pre, post, e3, (key k).1 e4, fun k' hk' h => e5 k' hk' ((key k').2 h)⟩

/-- C131: changing the limits of one type changes the choice only to or from this type; a block that keeps its type keeps its contents. -/
theorem C131_only_own_blocks (b : Build) (rnd : R → R) (hrnd : rnd 0 = 0) (t t' : Settings R) (own : Kind)
    (A : Dense R) (nr nc r0 c0 r c : Nat) (f : Nat → Nat → R) (hs : (Src.sub A nr nc r0 c0).Is r c f)
    (hD : 0 ≤ t.sigDouble) (hDF : t.sigDouble < t.sigSingle) (h1 : 1 ≤ t.denseDDouble) (h2 : 1 ≤ t.denseDSingle)
    (h1' : 1 ≤ t'.denseDDouble) (h2' : 1 ≤ t'.denseDSingle) (hs1 : t'.sigDouble = t.sigDouble) (hs2 : t'.sigSingle = t.sigSingle)
    (hz : own ≠ .zero → t'.zeroDouble = t.zeroDouble)
    (same : ∀ k, k ≠ own → k ≠ .zero → ∀ large all, Promised t' large all k ↔ Promised t large all k) :
    ∃ k M k' M', convertMatrix b rnd t (.sub A nr nc r0 c0) = .ok (k, M) ∧ convertMatrix b rnd t' (.sub A nr nc r0 c0) = .ok (k', M') ∧
      (k = k' ∧ M = M' ∨ k ≠ k' ∧ (k = own ∨ k' = own)) := by
  obtain ⟨k, M, e1, -, pre, post, e3, e4, e5⟩ := C131_exact b rnd hrnd t A nr nc r0 c0 r c f hs hD hDF h1 h2
  obtain ⟨k', M', e1', -, pre', post', e3', e4', e5'⟩ := C131_exact b rnd hrnd t' A nr nc r0 c0 r c f hs (hs1 ▸ hD) (hs1 ▸ hs2 ▸ hDF) h1' h2'
  rw [hs1, hs2] at e4' e5'
  refine ⟨k, M, k', M', e1, e1', ?_⟩
  have key : ∀ q, q ≠ own → ((if q = .zero then share t.sigDouble r c f ≤ t'.zeroDouble
        else Promised t' (share t.sigSingle r c f) (share t.sigDouble r c f) q) ↔ (if q = .zero then share t.sigDouble r c f ≤ t.zeroDouble
        else Promised t (share t.sigSingle r c f) (share t.sigDouble r c f) q)) := by
    intro q hq
    by_cases h0 : q = .zero
    · rw [if_pos h0, if_pos h0, hz (fun h => hq (h0.trans h.symm))]
    · rw [if_neg h0, if_neg h0]; exact same q hq h0 _ _
  have hkk : k = k' ∨ k = own ∨ k' = own := by
    by_contra hn
    push Not at hn
    obtain ⟨n1, n2, n3⟩ := hn
    rw [e3] at e3'
    rcases List.append_eq_append_iff.1 e3' with ⟨x, rfl, hx⟩ | ⟨x, rfl, hx⟩
    · cases x with
      | nil => simp only [List.nil_append, List.cons.injEq] at hx; exact n1 hx.1
      | cons y ys =>
        simp only [List.cons_append, List.cons.injEq] at hx
        exact e5' k (by simp [hx.1]) ((key k n2).2 e4)
    · cases x with
      | nil => simp only [List.nil_append, List.cons.injEq] at hx; exact n1 hx.1.symm
      | cons y ys =>
        simp only [List.cons_append, List.cons.injEq] at hx
        exact e5 k' (by simp [hx.1]) ((key k' n3).1 e4')
  by_cases hk : k = k'
  · refine .inl ⟨hk, ?_⟩
    subst hk
    have : ∀ t2 : Settings R, ∀ M2, 0 ≤ t2.sigDouble → t2.sigDouble < t2.sigSingle → 1 ≤ t2.denseDDouble → 1 ≤ t2.denseDSingle →
        convertMatrix b rnd t2 (.sub A nr nc r0 c0) = .ok (k, M2) → convertTo rnd t2 (.sub A nr nc r0 c0) k = .ok M2 := by
      intro t2 M2 a1 a2 a3 a4 a5
      obtain ⟨_, k3, _, M3, -, g1, -, -, -, g2⟩ := C37_first_match b rnd hrnd t2 A nr nc r0 c0 r c f hs a1 a2 a3 a4
      rw [a5] at g1
      cases g1
      exact g2
    have g1 := this t M hD hDF h1 h2 e1
    have g2 := this t' M' (hs1 ▸ hD) (hs1 ▸ hs2 ▸ hDF) h1' h2' e1'
    have : convertTo rnd t' (.sub A nr nc r0 c0) k = convertTo rnd t (.sub A nr nc r0 c0) k := by
      cases k <;> simp only [convertTo, Settings.sig, hs1, hs2]
    rw [this, g1] at g2
    cases g2
    rfl
  · exact .inr ⟨hk, hkk.resolve_left hk⟩

end

/-- C131, negative: the single-precision limit of the zero type has no effect at all, for any matrix and any settings. -/
theorem C131_zero_single_is_ignored [LT R] [DecidableLT R] [LE R] [DecidableLE R] [HasAbs R] [Zero R] [NatCast R] [Div R]
    (b : Build) (rnd : R → R) (t : Settings R) (x : R) (s : Src R) :
    convertMatrix b rnd { t with zeroSingle := x } s = convertMatrix b rnd t s := by
  have h : isConvertible { t with zeroSingle := x } s = isConvertible t s := by
    funext k; cases k <;> rfl
  have h2 : convertTo rnd { t with zeroSingle := x } s = convertTo rnd t s := by
    funext k; cases k <;> rfl
  unfold convertMatrix
  rw [h, h2]

/-- C131, negative: with a limit of 1/2 for all elements above the double-precision significance and of 0 for those above the single-precision
significance, any block of which between one and half of the elements are large is replaced by a zero matrix. -/
theorem C131_large_elements_are_lost [Field R] [LinearOrder R] [IsStrictOrderedRing R] (b : Build) (rnd : R → R) (hrnd : rnd 0 = 0) (t : Settings R)
    (A : Dense R) (nr nc r0 c0 r c : Nat) (f : Nat → Nat → R) (hs : (Src.sub A nr nc r0 c0).Is r c f)
    (hD : 0 ≤ t.sigDouble) (hDF : t.sigDouble < t.sigSingle) (h1 : 1 ≤ t.denseDDouble) (h2 : 1 ≤ t.denseDSingle)
    (hz0 : t.zeroSingle = 0) (hz : t.zeroDouble = 1 / 2) (hlarge : 0 < countAbove t.sigSingle r c f) (hhalf : 2 * countAbove t.sigDouble r c f ≤ r * c) :
    ¬ Promised t (share t.sigSingle r c f) (share t.sigDouble r c f) .zero ∧
    ∃ M, convertMatrix b rnd t (.sub A nr nc r0 c0) = .ok (.zero, M) ∧ M.Is r c (fun _ _ => 0) := by
  obtain ⟨hr, hc⟩ : 0 < r ∧ 0 < c := ⟨hs.2.2.1, hs.2.2.2.1⟩
  have hpos : (0 : R) < ((r * c : Nat) : R) := by exact_mod_cast Nat.mul_pos hr hc
  constructor
  · rintro ⟨-, h⟩
    rw [hz0] at h
    exact absurd (ratio_nonpos (Nat.mul_pos hr hc) (le_refl (0 : R)) h) hlarge.ne'
  · obtain ⟨pre, k, post, M, e1, e2, e3, e4, -, e6⟩ := C37_first_match b rnd hrnd t A nr nc r0 c0 r c f hs hD hDF h1 h2
    have ok : share t.sigDouble r c f ≤ t.zeroDouble := by
      rw [hz, share, div_le_div_iff₀ hpos two_pos, one_mul, mul_comm]
      exact_mod_cast hhalf
    have : k = .zero := by
      cases pre with
      | nil => simp only [List.nil_append, List.cons.injEq] at e1; exact e1.1.symm
      | cons p pre =>
        simp only [List.cons_append, List.cons.injEq] at e1
        exact absurd ⟨ok, (share_mono hDF.le r c f).trans ok⟩ (e4 p (by simp) |> (e1.1 ▸ ·))
    subst this
    obtain ⟨M', g1, -, g2⟩ := C36_contents_partial rnd hrnd t A nr nc r0 c0 r c f hs hD hDF .zero
    rw [e6] at g1
    cases g1
    exact ⟨M, e2, g2⟩

/-- A concrete block meets the hypotheses: one of ten elements is large; with a limit of 1/2 in double and 0 in single precision it is lost. -/
example : ∃ M : Mat ℚ, convertMatrix .debug id { Settings.default (1/10 : ℚ) (1/100) with zeroDouble := 1 / 2 }
      (.sub (Dense.ofFn .col 4 5 (fun i j => if i = 1 ∧ j = 1 then 3 else 0)) 2 5 1 0) = .ok (.zero, M) ∧ M.Is 2 5 (fun _ _ => 0) := by
  have hs : (Src.sub (Dense.ofFn .col 4 5 (fun i j => if i = 1 ∧ j = 1 then (3 : ℚ) else 0)) 2 5 1 0).Is 2 5
      (fun i j => if i = 0 ∧ j = 1 then 3 else 0) := by
    refine ⟨rfl, rfl, by decide, by decide, rfl, 4, 5, _, Dense.ofFn_is _ _ _ _, by decide, by decide, by decide, by decide, ?_⟩
    intro i j _ _
    simp
  have h1 : countAbove (1/10 : ℚ) 2 5 (fun i j => if i = 0 ∧ j = 1 then 3 else 0) = 1 := by
    norm_num [countAbove, Finset.sum_range_succ]
  have h2 : countAbove (1/100 : ℚ) 2 5 (fun i j => if i = 0 ∧ j = 1 then 3 else 0) = 1 := by
    norm_num [countAbove, Finset.sum_range_succ]
  refine (C131_large_elements_are_lost .debug id rfl _ _ _ _ _ _ _ _ _ hs ?_ ?_ (le_refl _) (le_refl _) rfl rfl ?_ ?_).2
  · norm_num [Settings.default]
  · norm_num [Settings.default]
  · show 0 < countAbove (1/10 : ℚ) 2 5 _
    rw [h1]; decide
  · show 2 * countAbove (1/100 : ℚ) 2 5 _ ≤ _
    rw [h2]; decide

/-- The settings of the example with default limits meet the hypothesis of `C131_settings_partial`; with other settings of sparse double alone the
hypotheses of `C131_only_own_blocks` hold. -/
example : let t := Settings.default (1/10 : ℚ) (1/100)
    let t' := { t with sparseDDouble := 0 }
    t.zeroDouble ≤ t.zeroSingle ∧ (Kind.sparseD ≠ .zero → t'.zeroDouble = t.zeroDouble) ∧
    ∀ k, k ≠ .sparseD → k ≠ .zero → ∀ large all, Promised t' large all k ↔ Promised t large all k := by
  refine ⟨le_refl _, fun _ => rfl, fun k h _ _ _ => ?_⟩
  cases k <;> first | exact absurd rfl h | exact Iff.rfl

end BB.Limits
