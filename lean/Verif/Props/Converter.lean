import Verif.Lemmas.Converter
import Mathlib.Algebra.Order.Field.Basic
import Mathlib.Algebra.Order.Ring.Rat
import Mathlib.Tactic.NormNum

/-!
# C36, C37: conversion by significance, choice of the representation
-/

namespace BB

variable {R : Type}

/-- What the stored matrix of kind `k` holds for an element `v` of a submatrix. -/
def keptAs [LinearOrder R] [AddGroup R] (rnd : R → R) (t : Settings R) : Kind → R → R
  | .zero, _ => 0
  | .sparseF, v => if t.sigDouble < |v| ∧ |v| ≤ t.sigSingle then rnd v else 0
  | .denseF, v => rnd v
  | .sparseD, v => if t.sigSingle < |v| then v else 0
  | .multSS, v => if t.sigSingle < |v| then v else if t.sigDouble < |v| then rnd v else 0
  | .multSD, v => if t.sigSingle < |v| then v else if t.sigDouble < |v| then rnd v else 0
  | .denseD, v => v

/-- The runtime type of the object. -/
def Kind.Matches : Kind → Mat R → Prop
  | .zero, .one (.zero _) => True
  | .sparseF, .one (.sparse _) => True
  | .sparseD, .one (.sparse _) => True
  | .denseF, .one (.dense _) => True
  | .denseD, .one (.dense _) => True
  | .multSS, .two (.sparse _) (.sparse _) => True
  | .multSD, .two (.sparse _) (.dense _) => True
  | _, _ => False

section aux

theorem mkTwo_ok {X1 X2 : SMat R} (h1 : X1.rows = X2.rows) (h2 : X1.cols = X2.cols) : Mat.mkTwo X1 X2 = .ok (.two X1 X2) := by
  simp [Mat.mkTwo, assertThat, h1, h2]

theorem mkAbove_ok [Zero R] [LinearOrder R] {t : R} (h : 0 ≤ t) : Checker.mkAbove t = .ok (.above t) := by
  simp [Checker.mkAbove, not_lt.2 h]

theorem mkExIn_ok [Zero R] [LinearOrder R] {lo hi : R} (h : 0 ≤ lo) (h2 : lo < hi) : Checker.mkExIn lo hi = .ok (.exIn lo hi) := by
  simp [Checker.mkExIn, not_lt.2 h, not_lt.2 (h.trans h2.le), h2]

theorem above_acc' [LinearOrder R] [Neg R] (t v : R) : ((Checker.above t).accepts v = true) ↔ t < max v (-v) :=
  decide_eq_true_iff

theorem exIn_acc' [LinearOrder R] [Neg R] (lo hi v : R) :
    ((Checker.exIn lo hi).accepts v = true) ↔ lo < max v (-v) ∧ max v (-v) ≤ hi := by
  show (decide (max v (-v) > lo) && decide (max v (-v) ≤ hi)) = true ↔ _
  rw [Bool.and_eq_true, decide_eq_true_iff, decide_eq_true_iff]

theorem above_acc [LinearOrder R] [AddGroup R] (t v : R) : ((Checker.above t).accepts v = true) ↔ t < |v| := above_acc' t v

theorem exIn_acc [LinearOrder R] [AddGroup R] (lo hi v : R) : ((Checker.exIn lo hi).accepts v = true) ↔ lo < |v| ∧ |v| ≤ hi :=
  exIn_acc' lo hi v

theorem countAcc_above [LinearOrder R] [Neg R] (t : R) (r c : Nat) (f : Nat → Nat → R) :
    countAcc (Checker.above t).accepts r c f = countAbove t r c f := by
  simp only [countAcc, countAbove, above_acc']

theorem countAbove_le [LinearOrder R] [Neg R] (t : R) (r c : Nat) (f : Nat → Nat → R) : countAbove t r c f ≤ r * c := by
  calc countAbove t r c f ≤ ∑ i ∈ Finset.range r, ∑ j ∈ Finset.range c, 1 :=
        Finset.sum_le_sum fun i _ => Finset.sum_le_sum fun j _ => by split <;> simp
    _ = r * c := by simp

theorem countAbove_zero' [LinearOrder R] [Neg R] {t : R} {r c : Nat} {f : Nat → Nat → R} (h : countAbove t r c f = 0)
    {i j : Nat} (hi : i < r) (hj : j < c) : max (f i j) (-f i j) ≤ t := by
  unfold countAbove at h
  rw [Finset.sum_eq_zero_iff] at h
  have h1 := h i (Finset.mem_range.2 hi)
  rw [Finset.sum_eq_zero_iff] at h1
  have h2 := h1 j (Finset.mem_range.2 hj)
  by_contra hn
  rw [if_pos (not_le.1 hn)] at h2
  exact absurd h2 one_ne_zero

theorem countAbove_zero [LinearOrder R] [AddGroup R] {t : R} {r c : Nat} {f : Nat → Nat → R} (h : countAbove t r c f = 0)
    {i j : Nat} (hi : i < r) (hj : j < c) : |f i j| ≤ t := countAbove_zero' h hi hj

theorem ratio_nonpos [Field R] [LinearOrder R] [IsStrictOrderedRing R] {n m : Nat} {x : R} (hm : 0 < m) (hx : x ≤ 0)
    (h : (n : R) / (m : R) ≤ x) : n = 0 := by
  have hm' : (0 : R) < m := by exact_mod_cast hm
  have h1 : (n : R) / m ≤ 0 := h.trans hx
  by_contra hn
  have hn' : (0 : R) < n := by exact_mod_cast Nat.pos_of_ne_zero hn
  exact absurd h1 (not_le.2 (div_pos hn' hm'))

theorem isConvertible_eq [LinearOrder R] [Zero R] [Neg R] [NatCast R] [Div R] {t : Settings R} {s : Src R} {r c : Nat} {f : Nat → Nat → R}
    (hs : s.Is r c f) (hr : 0 < r) (hc : 0 < c) (hD : 0 ≤ t.sigDouble) (hF : 0 ≤ t.sigSingle) (k : Kind) :
    ∃ b, isConvertible t s k = .ok b ∧ (b = true ↔ Fulfils t r c f k) := by
  have hpos : r * c ≠ 0 := Nat.ne_of_gt (Nat.mul_pos hr hc)
  have occ : ∀ x : R, s.occupation (.above x) = .ok (some ((countAbove x r c f : R) / ((r * c : Nat) : R))) := by
    intro x
    simp only [Src.occupation, Src.count_eq _ hs, bind_ok', occupationOf, hs.size, if_neg hpos, countAcc_above]
    rfl
  unfold isConvertible Fulfils
  simp only [Settings.sig, mkAbove_ok hD, mkAbove_ok hF, bind_ok', occ]
  by_cases h : (countAbove t.sigDouble r c f : R) / ((r * c : Nat) : R) ≤ t.occ k .double
  · refine ⟨decide ((countAbove t.sigSingle r c f : R) / ((r * c : Nat) : R) ≤ t.occ k .single), ?_, ?_⟩
    · simp only [leNaN, h, decide_true, if_true]; rfl
    · rw [decide_eq_true_iff]; exact ⟨fun a => ⟨h, a⟩, fun a => a.2⟩
  · refine ⟨false, ?_, ?_⟩
    · simp only [leNaN, h, decide_false, Bool.false_eq_true, if_false]; rfl
    · simp only [Bool.false_eq_true, false_iff]; exact fun a => h a.1

end aux

/-- C36, exact contents: converting a submatrix to kind `k` succeeds, produces an object of that runtime type,
and it denotes the matrix of the kept elements. -/
theorem C36_contents_partial [Field R] [LinearOrder R] [IsStrictOrderedRing R] (rnd : R → R) (hrnd : rnd 0 = 0) (t : Settings R)
    (A : Dense R) (nr nc r0 c0 r c : Nat) (f : Nat → Nat → R) (hs : (Src.sub A nr nc r0 c0).Is r c f)
    (hD : 0 ≤ t.sigDouble) (hDF : t.sigDouble < t.sigSingle) (k : Kind) :
    ∃ M, convertTo rnd t (.sub A nr nc r0 c0) k = .ok M ∧ k.Matches M ∧ M.Is r c (fun i j => keptAs rnd t k (f i j)) := by
  have hF : 0 ≤ t.sigSingle := hD.trans hDF.le
  have dense : ∀ chk (cvt : R → R), ∃ D, (Src.sub A nr nc r0 c0).toDense chk cvt = .ok D ∧ D.Is r c _ ∧ D.ori = .col :=
    fun chk cvt => Src.toDense_sat chk cvt hs
  have sparse : ∀ chk (cvt : R → R), ∃ S, (Src.sub A nr nc r0 c0).toSparse chk cvt = .ok S ∧ S.Is r c _ ∧ S.ori = .col :=
    fun chk cvt => Src.toSparse_sat chk cvt hs
  have zero0 : ∀ v : R, (if (Checker.above (0 : R)).accepts v = true then v else 0) = v := by
    intro v
    by_cases h : (0 : R) < |v|
    · rw [if_pos ((above_acc _ _).2 h)]
    · rw [if_neg (fun a => h ((above_acc _ _).1 a))]
      have := abs_nonpos_iff.1 (not_lt.1 h)
      exact this.symm
  cases k with
  | zero =>
    refine ⟨_, rfl, trivial, ?_, ?_, ?_⟩
    · exact hs.rows
    · exact hs.cols
    · intro i j _ _; rfl
  | denseF =>
    obtain ⟨D, e, h, o⟩ := dense (.above 0) rnd
    refine ⟨.one (.dense D), by simp only [convertTo, e, bind_ok']; rfl, trivial, ?_⟩
    refine ⟨h.congr fun i j _ _ => ?_, o⟩
    simp only [zero0, keptAs]
  | denseD =>
    obtain ⟨D, e, h, o⟩ := dense (.above 0) id
    refine ⟨.one (.dense D), by simp only [convertTo, e, bind_ok']; rfl, trivial, ?_⟩
    refine ⟨h.congr fun i j _ _ => ?_, o⟩
    simp only [zero0, keptAs, id]
  | sparseD =>
    obtain ⟨S, e, h, o⟩ := sparse (.above t.sigSingle) id
    refine ⟨.one (.sparse S), by simp only [convertTo, Settings.sig, mkAbove_ok hF, e, bind_ok']; rfl, trivial, ?_⟩
    refine ⟨h.congr fun i j _ _ => ?_, o⟩
    simp only [above_acc, keptAs, id]
  | sparseF =>
    obtain ⟨S, e, h, o⟩ := sparse (.exIn t.sigDouble t.sigSingle) rnd
    refine ⟨.one (.sparse S), by simp only [convertTo, Settings.sig, mkExIn_ok hD hDF, e, bind_ok']; rfl, trivial, ?_⟩
    refine ⟨h.congr fun i j _ _ => ?_, o⟩
    simp only [exIn_acc, keptAs]
  | multSS =>
    obtain ⟨S1, e1, h1, o1⟩ := sparse (.above t.sigSingle) id
    obtain ⟨S2, e2, h2, o2⟩ := sparse (.exIn t.sigDouble t.sigSingle) rnd
    refine ⟨.two (.sparse S1) (.sparse S2), ?_, trivial, ?_⟩
    · simp only [convertTo, Settings.sig, mkAbove_ok hF, mkExIn_ok hD hDF, e1, e2, bind_ok']
      exact mkTwo_ok (by simp [SMat.rows, h1.rows, h2.rows]) (by simp [SMat.cols, h1.cols, h2.cols])
    · refine ⟨_, _, ⟨h1, o1⟩, ⟨h2, o2⟩, fun i j _ _ => ?_⟩
      simp only [above_acc, exIn_acc, keptAs, id]
      by_cases a : t.sigSingle < |f i j|
      · simp [a, not_le.2 a]
      · by_cases b : t.sigDouble < |f i j|
        · simp [a, b, not_lt.1 a]
        · simp [a, b]
  | multSD =>
    obtain ⟨S1, e1, h1, o1⟩ := sparse (.above t.sigSingle) id
    obtain ⟨D2, e2, h2, o2⟩ := dense (.exIn t.sigDouble t.sigSingle) rnd
    refine ⟨.two (.sparse S1) (.dense D2), ?_, trivial, ?_⟩
    · simp only [convertTo, Settings.sig, mkAbove_ok hF, mkExIn_ok hD hDF, e1, e2, bind_ok']
      exact mkTwo_ok (by simp [SMat.rows, h1.rows, h2.rows]) (by simp [SMat.cols, h1.cols, h2.cols])
    · refine ⟨_, _, ⟨h1, o1⟩, ⟨h2, o2⟩, fun i j _ _ => ?_⟩
      simp only [above_acc, exIn_acc, keptAs, id]
      by_cases a : t.sigSingle < |f i j|
      · simp [a, not_le.2 a, hrnd]
      · by_cases b : t.sigDouble < |f i j|
        · simp [a, b, not_lt.1 a]
        · simp [a, b, hrnd]

/-- `exec_if`: if the predicate is defined on all types, the action of the *first* type that fulfils it is the
one that is executed, and nothing else; if none does, the failure macro decides (and an optimised build runs
the last type's action). -/
theorem C37_exec_if {K α : Type} (b : Build) (p : K → Res Bool) (P : K → Prop) (e : K → Res α) (ks : List K) (hne : ks ≠ [])
    (hp : ∀ k ∈ ks, ∃ x, p k = .ok x ∧ (x = true ↔ P k)) :
    (∃ pre k post, ks = pre ++ k :: post ∧ P k ∧ (∀ k' ∈ pre, ¬ P k') ∧ execIf b p e ks = e k) ∨
    ((∀ k ∈ ks, ¬ P k) ∧ execIf b p e ks =
      match b with
      | .debug => .error .assertFail
      | .exception => .error (.throw "type not found")
      | .release => e (ks.getLast hne)) := by
  induction ks with
  | nil => exact absurd rfl hne
  | cons k ks ih =>
    obtain ⟨x, hx, hxP⟩ := hp k (List.mem_cons_self ..)
    cases ks with
    | nil =>
      cases x with
      | true => exact .inl ⟨[], k, [], rfl, hxP.1 rfl, by simp, by simp [execIf, hx]⟩
      | false =>
        refine .inr ⟨fun k' hk' => ?_, ?_⟩
        · simp only [List.mem_singleton] at hk'
          subst hk'
          intro h
          exact absurd (hxP.2 h) (by simp)
        · cases b <;> simp [execIf, hx, coreFailure]
    | cons k2 ks =>
      cases x with
      | true => exact .inl ⟨[], k, k2 :: ks, rfl, hxP.1 rfl, by simp, by simp [execIf, hx]⟩
      | false =>
        have hnk : ¬ P k := fun h => absurd (hxP.2 h) (by simp)
        have hstep : execIf b p e (k :: k2 :: ks) = execIf b p e (k2 :: ks) := by simp [execIf, hx]
        rcases ih (by simp) (fun k' hk' => hp k' (List.mem_cons_of_mem _ hk')) with ⟨pre, k', post, h1, h2, h3, h4⟩ | ⟨h1, h2⟩
        · refine .inl ⟨k :: pre, k', post, by rw [h1]; rfl, h2, ?_, by rw [hstep, h4]⟩
          intro q hq
          rcases List.mem_cons.1 hq with rfl | hq
          · exact hnk
          · exact h3 q hq
        · refine .inr ⟨?_, ?_⟩
          · intro q hq
            rcases List.mem_cons.1 hq with rfl | hq
            · exact hnk
            · exact h1 q hq
          · rw [hstep, h2]
            rfl

/-- C37: for a non-empty submatrix and thresholds whose dense-double entries are at least 1 (the defaults), in
every build: the conversion succeeds; the chosen type fulfils its occupation conditions, no type
before it in the priority order does, and the object is the conversion to that type.  (Outside the claim: empty
matrices, for which no type is found: `C63_convert_empty_is_not_found`.) -/
theorem C37_first_match [Field R] [LinearOrder R] [IsStrictOrderedRing R] (b : Build) (rnd : R → R) (hrnd : rnd 0 = 0) (t : Settings R)
    (A : Dense R) (nr nc r0 c0 r c : Nat) (f : Nat → Nat → R) (hs : (Src.sub A nr nc r0 c0).Is r c f)
    (hD : 0 ≤ t.sigDouble) (hDF : t.sigDouble < t.sigSingle) (h1 : 1 ≤ t.denseDDouble) (h2 : 1 ≤ t.denseDSingle) :
    ∃ pre k post M, [Kind.zero, .sparseF, .denseF, .sparseD, .multSS, .multSD, .denseD] = pre ++ k :: post ∧
      convertMatrix b rnd t (.sub A nr nc r0 c0) = .ok (k, M) ∧
      Fulfils t r c f k ∧ (∀ k' ∈ pre, ¬ Fulfils t r c f k') ∧
      k.Matches M ∧ convertTo rnd t (.sub A nr nc r0 c0) k = .ok M := by
  obtain ⟨hr, hc⟩ : 0 < r ∧ 0 < c := ⟨hs.2.2.1, hs.2.2.2.1⟩
  have hpos : 0 < r * c := Nat.mul_pos hr hc
  have hdef : Fulfils t r c f .denseD := by
    have : ∀ x : R, (countAbove x r c f : R) / ((r * c : Nat) : R) ≤ 1 := by
      intro x
      rw [div_le_one (by exact_mod_cast hpos)]
      exact_mod_cast countAbove_le x r c f
    exact ⟨(this _).trans h1, (this _).trans h2⟩
  rcases C37_exec_if b (isConvertible t (.sub A nr nc r0 c0)) (Fulfils t r c f)
    (fun k => do return (k, ← convertTo rnd t (.sub A nr nc r0 c0) k)) typeList (by simp [typeList])
    (fun k _ => isConvertible_eq hs hr hc hD (hD.trans hDF.le) k) with ⟨pre, k, post, e1, e2, e3, e4⟩ | ⟨h, -⟩
  · obtain ⟨M, hM, hm, -⟩ := C36_contents_partial rnd hrnd t A nr nc r0 c0 r c f hs hD hDF k
    refine ⟨pre, k, post, M, e1, ?_, e2, e3, hm, hM⟩
    rw [convertMatrix, e4, hM]; rfl
  · exact absurd hdef (h .denseD (by simp [typeList]))

/-- C63, negative: for an empty matrix both occupations are NaN, no type qualifies – not even
dense double – and the converter fails. -/
theorem C63_convert_empty_is_not_found [Field R] [LinearOrder R] [IsStrictOrderedRing R] (rnd : R → R) (t : Settings R) (A : Dense R) (c : Nat)
    (f : Nat → Nat → R) (hA : A.Is 0 c f) (ho : A.ori = .col) (hD : 0 ≤ t.sigDouble) :
    convertMatrix .debug rnd t (.plain A) = .error .assertFail := by
  have hs : (Src.plain A).Is 0 c f := ⟨hA, ho⟩
  have hp : ∀ k, isConvertible t (.plain A) k = .ok false := by
    intro k
    unfold isConvertible
    simp only [Settings.sig, mkAbove_ok hD, bind_ok', Src.occupation, Src.count_eq _ hs, occupationOf, hs.size, Nat.zero_mul, if_true]
    rfl
  simp [convertMatrix, typeList, execIf, hp, coreFailure]

example : (Dense.ofFn (R := ℚ) .col 0 3 (fun _ _ => 1)).Is 0 3 (fun _ _ => 1) := Dense.ofFn_is _ _ _ _

/-- C36: with the default policy for the types that drop large elements (their single-precision occupation
thresholds – and the zero type's – are 0) each element of the stored matrix is the original one,
or its single-precision rounding (only where |element| ≤ the single-precision significance), or 0; and it is
dropped only if its absolute value is at most the governing significance threshold: the single-precision one
for sparse double, the double-precision one for every other type.  The stored matrix is observed through its
conversion to dense.  (Missing: plain, i.e. not-submatrix sources and other occupation thresholds, see the
negative theorems below.) -/
theorem C36_error_bound_partial [Field R] [LinearOrder R] [IsStrictOrderedRing R] (b : Build) (rnd : R → R) (hrnd : rnd 0 = 0) (t : Settings R)
    (A : Dense R) (nr nc r0 c0 r c : Nat) (f : Nat → Nat → R) (hs : (Src.sub A nr nc r0 c0).Is r c f)
    (hD : 0 ≤ t.sigDouble) (hDF : t.sigDouble < t.sigSingle) (h1 : 1 ≤ t.denseDDouble) (h2 : 1 ≤ t.denseDSingle)
    (hz : t.zeroDouble ≤ 0) (hsf : t.sparseFSingle ≤ 0) (hdf : t.denseFSingle ≤ 0) :
    ∃ k M D g, convertMatrix b rnd t (.sub A nr nc r0 c0) = .ok (k, M) ∧ M.Is r c g ∧ M.toDense = .ok D ∧ D.Is r c g ∧
      ∀ i j, i < r → j < c →
        g i j = f i j ∨ (g i j = rnd (f i j) ∧ |f i j| ≤ t.sigSingle) ∨
        (g i j = 0 ∧ |f i j| ≤ if k = .sparseD then t.sigSingle else t.sigDouble) := by
  obtain ⟨pre, k, post, M, -, e, hk, -, -, hM⟩ := C37_first_match b rnd hrnd t A nr nc r0 c0 r c f hs hD hDF h1 h2
  obtain ⟨M', hM', -, hIs⟩ := C36_contents_partial rnd hrnd t A nr nc r0 c0 r c f hs hD hDF k
  obtain rfl : M = M' := by rw [hM] at hM'; cases hM'; rfl
  obtain ⟨D, eD, hDI, -⟩ := Mat.toDense_sat hIs
  refine ⟨k, M, D, _, e, hIs, eD, hDI, ?_⟩
  obtain ⟨hr, hc⟩ : 0 < r ∧ 0 < c := ⟨hs.2.2.1, hs.2.2.2.1⟩
  have hpos : 0 < r * c := Nat.mul_pos hr hc
  intro i j hi hj
  have small : ∀ p : R, t.occ k .single ≤ 0 → |f i j| ≤ t.sigSingle := fun _ h =>
    countAbove_zero (ratio_nonpos hpos h hk.2) hi hj
  cases k with
  | zero =>
    right; right
    refine ⟨rfl, ?_⟩
    rw [if_neg (by decide)]
    exact countAbove_zero (ratio_nonpos hpos hz hk.1) hi hj
  | denseF => exact .inr (.inl ⟨rfl, small 0 hdf⟩)
  | denseD => exact .inl rfl
  | sparseD =>
    by_cases a : t.sigSingle < |f i j|
    · left; simp [keptAs, a]
    · right; right
      exact ⟨by simp [keptAs, a], by simpa using a⟩
  | sparseF =>
    have hle := small 0 hsf
    by_cases a : t.sigDouble < |f i j|
    · right; left
      exact ⟨by simp [keptAs, a, hle], hle⟩
    · right; right
      exact ⟨by simp [keptAs, a], by simpa using a⟩
  | multSS =>
    by_cases a : t.sigSingle < |f i j|
    · left; simp [keptAs, a]
    · by_cases a' : t.sigDouble < |f i j|
      · exact .inr (.inl ⟨by simp [keptAs, a, a'], not_lt.1 a⟩)
      · exact .inr (.inr ⟨by simp [keptAs, a, a'], by simpa using a'⟩)
  | multSD =>
    by_cases a : t.sigSingle < |f i j|
    · left; simp [keptAs, a]
    · by_cases a' : t.sigDouble < |f i j|
      · exact .inr (.inl ⟨by simp [keptAs, a, a'], not_lt.1 a⟩)
      · exact .inr (.inr ⟨by simp [keptAs, a, a'], by simpa using a'⟩)

/-- The default settings and a window of a concrete matrix meet the hypotheses. -/
example : let t := Settings.default (1/10 : ℚ) (1/100)
    (0 ≤ t.sigDouble ∧ t.sigDouble < t.sigSingle ∧ 1 ≤ t.denseDDouble ∧ 1 ≤ t.denseDSingle ∧ t.zeroDouble ≤ 0 ∧
      t.sparseFSingle ≤ 0 ∧ t.denseFSingle ≤ 0) ∧
    (Src.sub (Dense.ofFn .col 4 5 (fun i j => ((3 * i + j : Nat) : ℚ))) 2 3 1 2).Is 2 3
      (fun i j => ((3 * (1 + i) + (2 + j) : Nat) : ℚ)) := by
  refine ⟨by norm_num [Settings.default], rfl, rfl, by decide, by decide, rfl, 4, 5, _, Dense.ofFn_is _ _ _ _, by decide, by decide, by decide, by decide, ?_⟩
  intro i j _ _; rfl

/-- C36, negative: a dense source that is *not* a submatrix is counted twice by the sparse-double + dense-float
type, because that conversion ignores the value checker: an element above the single-precision significance is
stored in both parts. -/
theorem C36_plain_source_doubles [Field R] [LinearOrder R] [IsStrictOrderedRing R] (rnd : R → R) (t : Settings R)
    (A : Dense R) (r c : Nat) (f : Nat → Nat → R) (hA : A.Is r c f) (ho : A.ori = .col)
    (hD : 0 ≤ t.sigDouble) (hDF : t.sigDouble < t.sigSingle) :
    ∃ M D g, convertTo rnd t (.plain A) .multSD = .ok M ∧ M.toDense = .ok D ∧ D.Is r c g ∧
      ∀ i j, i < r → j < c → t.sigSingle < |f i j| → g i j = f i j + rnd (f i j) := by
  have hF : 0 ≤ t.sigSingle := hD.trans hDF.le
  have hs : (Src.plain A).Is r c f := ⟨hA, ho⟩
  obtain ⟨S1, e1, h1, o1⟩ := Src.toSparse_sat (.above t.sigSingle) id hs
  obtain ⟨D2, e2, o2, h2⟩ := Dense.convert_sat rnd .col hA
  have hIs : (Mat.two (.sparse S1) (.dense D2)).Is r c _ := ⟨_, _, ⟨h1, o1⟩, ⟨h2, o2⟩, fun i j _ _ => rfl⟩
  obtain ⟨D, eD, hDI, -⟩ := Mat.toDense_sat hIs
  refine ⟨_, D, _, ?_, eD, hDI, ?_⟩
  · have e2' : (Src.plain A).toDense (.exIn t.sigDouble t.sigSingle) rnd = .ok D2 := e2
    simp only [convertTo, Settings.sig, mkAbove_ok hF, mkExIn_ok hD hDF, e1, e2', bind_ok']
    exact mkTwo_ok (by simp [SMat.rows, h1.rows, h2.rows]) (by simp [SMat.cols, h1.cols, h2.cols])
  · intro i j _ _ h
    simp [above_acc, h]

/-- C36, negative: … and the default thresholds do select that type, e.g. for the column (1, 1/20, 1/20, 1/20, 1/20)
with significance thresholds 1/100 and 1/10: element (0,0) comes back as 2. -/
theorem C36_plain_source_selected :
    (do let (k, M) ← convertMatrix .debug id (Settings.default (1/10 : ℚ) (1/100))
          (.plain (Dense.ofFn .col 5 1 (fun i _ => if i = 0 then 1 else 1/20)))
        let D ← M.toDense
        return (k, ← D.get 0 0)) = (.ok (Kind.multSD, 2) : Res (Kind × ℚ)) := by
  decide +kernel

/-- C36, negative: with a positive single-precision occupation threshold for sparse float, an element above every
significance threshold is lost. -/
theorem C36_positive_threshold_loses :
    (do let (k, M) ← convertMatrix .debug id { Settings.default (1/10 : ℚ) (1/100) with sparseFSingle := 1/4, sparseFDouble := 1/4 }
          (.sub (Dense.ofFn .col 2 2 (fun i j => if i = 0 ∧ j = 0 then 7 else 0)) 2 2 0 0)
        let D ← M.toDense
        return (k, ← D.get 0 0)) = (.ok (Kind.sparseF, 0) : Res (Kind × ℚ)) := by
  decide +kernel

end BB
