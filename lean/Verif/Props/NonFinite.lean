import Verif.Lemmas.Ieee
import Verif.Lemmas.Converter
import Verif.Props.Compare
import Verif.Props.Converter
import Verif.Props.Float
import Verif.Props.NormFp

/-!
# C116: infinities and NaN

All theorems are about matrices of IEEE numbers whose finite arithmetic rounds in any way and overflows (`FinArith`).
-/

namespace BB

variable {F : Type} [FinArith F]

open Ieee

/-! ### Significance and conversion -/

/-- C116: no value checker accepts NaN. -/
theorem C116_checkers_reject_nan (k : Checker (Ieee F)) : k.accepts .nan = false := by
  cases k <;> simp [Checker.accepts]

/-- C116: an infinity is significant for every finite threshold. -/
theorem C116_infinity_is_significant (t : F) (a : Bool) : (Checker.above (.fin t : Ieee F)).accepts (.inf a) = true := by
  simp [Checker.accepts, absv, GT.gt]

/-- C116, negative: converting a dense matrix to sparse and back replaces every NaN by 0, for every checker; the sparse matrix
counts none of them. -/
theorem C116_sparse_conversion_loses_nan (k : Checker (Ieee F)) (o o' : Ori) (A : Dense (Ieee F)) (r c : Nat) (f : Nat → Nat → Ieee F)
    (hA : A.Is r c f) (ho : A.ori = .col) :
    ∃ S D, Sparse.ofDense k.accepts id o A = .ok S ∧ S.toDense id o' = .ok D ∧
      ∀ i j, i < r → j < c → f i j = .nan → D.get i j = .ok 0 := by
  obtain ⟨S, D, e, e', -, h⟩ := C14_round_trip k.accepts o o' A r c f hA ho
  refine ⟨S, D, e, e', fun i j hi hj hn => ?_⟩
  rw [h.elems i j hi hj, hn, C116_checkers_reject_nan]
  rfl

/-- C116: with a finite threshold the same conversions keep every infinity. -/
theorem C116_sparse_conversion_keeps_infinities (t : F) (o o' : Ori) (A : Dense (Ieee F)) (r c : Nat) (f : Nat → Nat → Ieee F)
    (hA : A.Is r c f) (ho : A.ori = .col) :
    ∃ S D, Sparse.ofDense (Checker.above (.fin t : Ieee F)).accepts id o A = .ok S ∧ S.toDense id o' = .ok D ∧
      ∀ i j a, i < r → j < c → f i j = .inf a → D.get i j = .ok (.inf a) := by
  obtain ⟨S, D, e, e', -, h⟩ := C14_round_trip (Checker.above (.fin t : Ieee F)).accepts o o' A r c f hA ho
  refine ⟨S, D, e, e', fun i j a hi hj hn => ?_⟩
  rw [h.elems i j hi hj, hn, C116_infinity_is_significant]
  rfl

theorem mkAbove_fin {t : F} (h : 0 ≤ t) : Checker.mkAbove (.fin t : Ieee F) = .ok (.above (.fin t)) := by
  rw [Checker.mkAbove, if_neg]
  rw [zero_def, fin_lt]
  exact not_lt.2 h

theorem mkExIn_fin {lo hi : F} (h : 0 ≤ lo) (h2 : lo < hi) : Checker.mkExIn (.fin lo : Ieee F) (.fin hi) = .ok (.exIn (.fin lo) (.fin hi)) := by
  rw [Checker.mkExIn, if_neg, if_neg, if_neg]
  · rw [ge_iff_le, fin_le]; exact not_le.2 h2
  · rw [zero_def, fin_lt]; exact not_lt.2 (h.trans h2.le)
  · rw [zero_def, fin_lt]; exact not_lt.2 h

/-- C116, negative: when a window of a dense matrix is converted, as the blocks of a blocked matrix are, every NaN becomes 0,
whichever type is selected – also the dense ones. -/
theorem C116_window_conversion_loses_nan (rnd : Ieee F → Ieee F) (hrnd : rnd 0 = 0) (t : Settings (Ieee F)) (sD sF : F)
    (hsD : t.sigDouble = .fin sD) (hsF : t.sigSingle = .fin sF) (hD : 0 ≤ sD) (hDF : sD < sF)
    (A : Dense (Ieee F)) (nr nc r0 c0 r c : Nat) (f : Nat → Nat → Ieee F) (hs : (Src.sub A nr nc r0 c0).Is r c f) (k : Kind) :
    ∃ M g, convertTo rnd t (.sub A nr nc r0 c0) k = .ok M ∧ k.Matches M ∧ M.Is r c g ∧
      ∀ i j, i < r → j < c → f i j = .nan → g i j = 0 := by
  have hF : 0 ≤ sF := hD.trans hDF.le
  have dense : ∀ chk (cvt : Ieee F → Ieee F), ∃ D, (Src.sub A nr nc r0 c0).toDense chk cvt = .ok D ∧ D.Is r c _ ∧ D.ori = .col :=
    fun chk cvt => Src.toDense_sat chk cvt hs
  have sparse : ∀ chk (cvt : Ieee F → Ieee F), ∃ S, (Src.sub A nr nc r0 c0).toSparse chk cvt = .ok S ∧ S.Is r c _ ∧ S.ori = .col :=
    fun chk cvt => Src.toSparse_sat chk cvt hs
  have rej := C116_checkers_reject_nan (F := F)
  cases k with
  | zero =>
    refine ⟨_, fun _ _ => 0, rfl, trivial, ⟨?_, ?_, ?_⟩, fun _ _ _ _ _ => rfl⟩
    · exact hs.rows
    · exact hs.cols
    · intro i j _ _; rfl
  | denseF =>
    obtain ⟨D, e, h, o⟩ := dense (.above 0) rnd
    exact ⟨.one (.dense D), _, by simp only [convertTo, e, bind_ok']; rfl, trivial, ⟨h, o⟩, fun i j _ _ hn => by simp [hn, rej, hrnd]⟩
  | denseD =>
    obtain ⟨D, e, h, o⟩ := dense (.above 0) id
    exact ⟨.one (.dense D), _, by simp only [convertTo, e, bind_ok']; rfl, trivial, ⟨h, o⟩, fun i j _ _ hn => by simp [hn, rej]⟩
  | sparseD =>
    obtain ⟨S, e, h, o⟩ := sparse (.above t.sigSingle) id
    rw [hsF] at e h
    exact ⟨.one (.sparse S), _, by simp only [convertTo, Settings.sig, hsF, mkAbove_fin hF, e, bind_ok']; rfl, trivial, ⟨h, o⟩,
      fun i j _ _ hn => by simp [hn, rej]⟩
  | sparseF =>
    obtain ⟨S, e, h, o⟩ := sparse (.exIn t.sigDouble t.sigSingle) rnd
    rw [hsD, hsF] at e h
    exact ⟨.one (.sparse S), _, by simp only [convertTo, Settings.sig, hsF, hsD, mkExIn_fin hD hDF, e, bind_ok']; rfl, trivial, ⟨h, o⟩,
      fun i j _ _ hn => by simp [hn, rej]⟩
  | multSS =>
    obtain ⟨S1, e1, h1, o1⟩ := sparse (.above t.sigSingle) id
    obtain ⟨S2, e2, h2, o2⟩ := sparse (.exIn t.sigDouble t.sigSingle) rnd
    rw [hsF] at e1 h1
    rw [hsD, hsF] at e2 h2
    refine ⟨.two (.sparse S1) (.sparse S2), _, ?_, trivial, ⟨_, _, ⟨h1, o1⟩, ⟨h2, o2⟩, fun i j _ _ => rfl⟩,
      fun i j _ _ hn => by simp [hn, rej]⟩
    simp only [convertTo, Settings.sig, hsF, hsD, mkAbove_fin hF, mkExIn_fin hD hDF, e1, e2, bind_ok']
    exact mkTwo_ok (by simp [SMat.rows, h1.rows, h2.rows]) (by simp [SMat.cols, h1.cols, h2.cols])
  | multSD =>
    obtain ⟨S1, e1, h1, o1⟩ := sparse (.above t.sigSingle) id
    obtain ⟨D2, e2, h2, o2⟩ := dense (.exIn t.sigDouble t.sigSingle) rnd
    rw [hsF] at e1 h1
    rw [hsD, hsF] at e2 h2
    refine ⟨.two (.sparse S1) (.dense D2), _, ?_, trivial, ⟨_, _, ⟨h1, o1⟩, ⟨h2, o2⟩, fun i j _ _ => rfl⟩,
      fun i j _ _ hn => by simp [hn, rej, hrnd]⟩
    simp only [convertTo, Settings.sig, hsF, hsD, mkAbove_fin hF, mkExIn_fin hD hDF, e1, e2, bind_ok']
    exact mkTwo_ok (by simp [SMat.rows, h1.rows, h2.rows]) (by simp [SMat.cols, h1.cols, h2.cols])

/-- A matrix none of whose elements is accepted has the occupation 0. -/
theorem occupation_none {s : Src (Ieee F)} {r c : Nat} {f : Nat → Nat → Ieee F} (hs : s.Is r c f) (hr : 0 < r) (hc : 0 < c)
    (k : Checker (Ieee F)) (hf : ∀ i j, i < r → j < c → k.accepts (f i j) = false) :
    s.occupation k = .ok (some 0) := by
  have hpos : r * c ≠ 0 := Nat.ne_of_gt (Nat.mul_pos hr hc)
  have h0 : countAcc k.accepts r c f = 0 := by
    unfold countAcc
    refine Finset.sum_eq_zero fun j hj => Finset.sum_eq_zero fun i hi => ?_
    simp only [Finset.mem_range] at hi hj
    rw [hf _ _ (by assumption) (by assumption)]; rfl
  simp only [Src.occupation, Src.count_eq k hs, bind_ok', occupationOf, hs.size, if_neg hpos, h0]
  show Except.ok (some ((((0 : Nat) : Ieee F)) / ((r * c : Nat) : Ieee F))) = _
  have hz : (((0 : Nat) : Ieee F)) / ((r * c : Nat) : Ieee F) = 0 := by
    show FinArith.ofNat 0 / FinArith.ofNat (r * c) = (0 : Ieee F)
    rw [FinArith.ofNat_zero]
    rcases FinArith.ofNat_pos (F := F) (r * c) hpos with h | ⟨x, hx, h⟩
    · rw [h]; rfl
    · rw [h]
      show (if x = 0 then _ else FinArith.div 0 x) = _
      rw [if_neg hx.ne', FinArith.zero_div x hx.ne']; rfl
  rw [hz]

/-- C116, negative: a non-empty matrix or window all of whose elements are NaN is converted to a zero matrix, for all thresholds
that are not negative. -/
theorem C116_nan_matrix_becomes_zero (b : Build) (rnd : Ieee F → Ieee F) (t : Settings (Ieee F)) (sD sF z : F)
    (hsD : t.sigDouble = .fin sD) (hsF : t.sigSingle = .fin sF) (hz : t.zeroDouble = .fin z) (hD : 0 ≤ sD) (hF : 0 ≤ sF) (h0 : 0 ≤ z)
    (s : Src (Ieee F)) (r c : Nat) (f : Nat → Nat → Ieee F) (hs : s.Is r c f) (hr : 0 < r) (hc : 0 < c)
    (hf : ∀ i j, i < r → j < c → f i j = .nan) :
    convertMatrix b rnd t s = .ok (.zero, .one (.zero (Dim.mk' r c))) := by
  have rej : ∀ k : Checker (Ieee F), s.occupation k = .ok (some 0) := fun k =>
    occupation_none hs hr hc k (fun i j hi hj => by rw [hf i j hi hj]; exact C116_checkers_reject_nan k)
  have hle : (0 : Ieee F) ≤ .fin z := by rw [zero_def, fin_le]; exact h0
  have hconv : isConvertible t s .zero = .ok true := by
    simp only [isConvertible, Settings.sig, Settings.occ, hsD, hsF, hz, mkAbove_fin hD, mkAbove_fin hF, bind_ok', rej, leNaN, hle,
      decide_true, if_true]
    rfl
  simp only [convertMatrix, typeList, execIf, hconv, bind_ok', if_true, convertTo, hs.rows, hs.cols]
  rfl

/-! ### Comparison -/

/-- C116: with finite accuracies `equal` holds exactly if the dimensions agree and all corresponding elements are finite and
differ by at most the larger accuracy. -/
theorem C116_equal_iff (a1 a2 : F) (A B : Dense (Ieee F)) (r c r' c' : Nat) (f g : Nat → Nat → Ieee F) (hA : A.Is r c f)
    (hB : B.Is r' c' g) (ho : A.ori = B.ori) :
    ∃ b, A.equal (.fin a1) (.fin a2) B = .ok b ∧ (b = true ↔ r = r' ∧ c = c' ∧ ∀ i j, i < r → j < c →
      ∃ x y z, f i j = .fin x ∧ g i j = .fin y ∧ absv (Ieee.fin x - .fin y) = .fin z ∧ z ≤ max a1 a2) := by
  obtain ⟨b, e, h⟩ := dense_equal_close (.fin a1) (.fin a2) A B r c r' c' f g hA hB ho
  refine ⟨b, e, h.trans ?_⟩
  refine and_congr_right fun _ => and_congr_right fun _ => forall_congr' fun i => forall_congr' fun j => imp_congr_right fun _ =>
    imp_congr_right fun _ => ?_
  have hmax : (max (.fin a1) (.fin a2) : Ieee F) = .fin (max a1 a2) := by
    show (if (Ieee.fin a1 : Ieee F) < .fin a2 then _ else _) = _
    rcases lt_or_ge a1 a2 with h | h
    · rw [if_pos ((fin_lt _ _).2 h), max_eq_right h.le]
    · rw [if_neg (fun h' => absurd ((fin_lt _ _).1 h') (not_lt.2 h)), max_eq_left h]
  simp only [closeTo, hmax, decide_eq_true_eq]
  constructor
  · intro hle
    cases hd : absv (f i j - g i j) with
    | nan => rw [hd] at hle; exact absurd hle (not_nan_le _)
    | inf a =>
      rcases abs_cases (f i j - g i j) with h | h | ⟨z, -, h⟩ <;> rw [hd] at h
      · cases h
      · cases h; rw [hd] at hle; cases hle
      · cases h
    | fin z =>
      rw [hd, fin_le] at hle
      obtain ⟨h1, h2⟩ := abs_sub_finite hd
      cases hf : f i j with
      | fin x => cases hg : g i j with
        | fin y => exact ⟨x, y, z, rfl, rfl, by rw [← hf, ← hg, hd], hle⟩
        | inf a => rw [hg] at h2; cases h2
        | nan => rw [hg] at h2; cases h2
      | inf a => rw [hf] at h1; cases h1
      | nan => rw [hf] at h1; cases h1
  · rintro ⟨x, y, z, h1, h2, h3, h4⟩
    rw [h1, h2, h3, fin_le]
    exact h4

/-- C116, negative: a dense matrix with an infinite or NaN element is not `equal` to itself (nor to a copy). -/
theorem C116_not_equal_to_itself (a1 a2 : F) (A : Dense (Ieee F)) (r c : Nat) (f : Nat → Nat → Ieee F) (hA : A.Is r c f) (i j : Nat)
    (hi : i < r) (hj : j < c) (h : ¬ (f i j).Finite) : A.equal (.fin a1) (.fin a2) A = .ok false := by
  obtain ⟨b, e, hb⟩ := C116_equal_iff a1 a2 A A r c r c f f hA hA rfl
  cases b with
  | false => exact e
  | true =>
    obtain ⟨-, -, h'⟩ := hb.1 rfl
    obtain ⟨x, y, z, h1, -⟩ := h' i j hi hj
    rw [h1] at h
    exact absurd trivial h

/-! ### Deviations and norms -/

theorem max_def (a b : Ieee F) : max a b = if a < b then b else a := rfl

theorem ieee_le_trans {a b c : Ieee F} (h1 : a ≤ b) (h2 : b ≤ c) : a ≤ c := by
  cases a with
  | nan => exact absurd h1 (not_nan_le _)
  | fin x => cases b with
    | nan => exact absurd h1 (not_le_nan _)
    | fin y => cases c with
      | nan => exact absurd h2 (not_le_nan _)
      | fin z => rw [fin_le] at *; exact h1.trans h2
      | inf d => cases d <;> first | rfl | cases h2
    | inf e => cases e with
      | true => cases h1
      | false => cases c with
        | nan => exact absurd h2 (not_le_nan _)
        | fin z => cases h2
        | inf d => cases d <;> first | rfl | cases h2
  | inf x => cases x with
    | true => cases c with
      | nan => exact absurd h2 (not_le_nan _)
      | fin z => rfl
      | inf d => cases d <;> rfl
    | false => cases b with
      | nan => exact absurd h1 (not_le_nan _)
      | fin y => cases h1
      | inf e => cases e with
        | true => cases h1
        | false => exact h2

theorem ieee_le_refl {a : Ieee F} (h : a ≠ .nan) : a ≤ a := by
  cases a with
  | nan => exact absurd rfl h
  | fin x => rw [fin_le]
  | inf x => cases x <;> rfl

theorem ieee_lt_le {a b : Ieee F} (h : a < b) : a ≤ b := by
  cases a with
  | nan => exact absurd h (not_nan_lt _)
  | fin x => cases b with
    | nan => exact absurd h (not_lt_nan _)
    | fin y => rw [fin_lt] at h; rw [fin_le]; exact h.le
    | inf e => cases e <;> first | rfl | cases h
  | inf x => cases b with
    | nan => exact absurd h (not_lt_nan _)
    | fin y => cases x <;> first | rfl | cases h
    | inf e => cases x <;> cases e <;> first | rfl | cases h

theorem ieee_not_lt {a b : Ieee F} (ha : a ≠ .nan) (hb : b ≠ .nan) (h : ¬ a < b) : b ≤ a := by
  cases a with
  | nan => exact absurd rfl ha
  | fin x => cases b with
    | nan => exact absurd rfl hb
    | fin y => rw [fin_lt] at h; rw [fin_le]; exact not_lt.1 h
    | inf e => cases e <;> first | rfl | exact absurd rfl h
  | inf x => cases b with
    | nan => exact absurd rfl hb
    | fin y => cases x <;> first | rfl | exact absurd rfl h
    | inf e => cases x <;> cases e <;> first | rfl | exact absurd rfl h

/-- The loop `m = std::max(m, x)` skips NaN. -/
theorem fold_max {T : Type} (h : T → Ieee F) (l : List T) (s : Ieee F) (hs : s ≠ .nan) :
    let m := l.foldl (fun m x => max m (h x)) s
    m ≠ .nan ∧ s ≤ m ∧ (∀ x ∈ l, h x = .nan ∨ h x ≤ m) ∧ (m = s ∨ ∃ x ∈ l, m = h x) := by
  induction l generalizing s with
  | nil => exact ⟨hs, ieee_le_refl hs, by simp, .inl rfl⟩
  | cons x l ih =>
    have hs' : max s (h x) ≠ .nan := by
      rw [max_def]
      split
      · rename_i hl; intro hn; rw [hn] at hl; exact not_lt_nan _ hl
      · exact hs
    obtain ⟨h1, h2, h3, h4⟩ := ih (max s (h x)) hs'
    have hle : s ≤ max s (h x) := by
      rw [max_def]; split
      · rename_i hl; exact ieee_lt_le hl
      · exact ieee_le_refl hs
    refine ⟨h1, ieee_le_trans hle h2, ?_, ?_⟩
    · intro y hy
      rcases List.mem_cons.1 hy with rfl | hy
      · by_cases hn : h y = .nan
        · exact .inl hn
        · right
          refine ieee_le_trans ?_ h2
          rw [max_def]; split
          · exact ieee_le_refl hn
          · rename_i hl; exact ieee_not_lt hs hn hl
      · exact h3 y hy
    · rcases h4 with h4 | ⟨y, hy, h4⟩
      · rw [List.foldl_cons, h4, max_def]
        split
        · exact .inr ⟨x, by simp, rfl⟩
        · exact .inl rfl
      · exact .inr ⟨y, by simp [hy], h4⟩

/-- Not negative and not NaN. -/
def Good (z : Ieee F) : Prop := z = .inf false ∨ ∃ w, 0 ≤ w ∧ z = .fin w

theorem Good.ne_nan {z : Ieee F} (h : Good z) : z ≠ .nan := by rcases h with rfl | ⟨w, -, rfl⟩ <;> simp

theorem Good.add {x y : Ieee F} (hx : Good x) (hy : Good y) : Good (x + y) := by
  rcases hx with rfl | ⟨w, hw, rfl⟩ <;> rcases hy with rfl | ⟨v, hv, rfl⟩
  · exact .inl rfl
  · exact .inl rfl
  · exact .inl rfl
  · exact FinArith.add_nonneg w v hw hv

/-- A sum of numbers that are not negative is NaN exactly if one of them is. -/
theorem fold_add {T : Type} (h : T → Ieee F) (hh : ∀ x, h x = .nan ∨ Good (h x)) (l : List T) (s : Ieee F) (hs : s = .nan ∨ Good s) :
    (l.foldl (fun m x => m + h x) s = .nan ∨ Good (l.foldl (fun m x => m + h x) s)) ∧
      (l.foldl (fun m x => m + h x) s = .nan ↔ s = .nan ∨ ∃ x ∈ l, h x = .nan) := by
  induction l generalizing s with
  | nil => exact ⟨hs, by simp⟩
  | cons x l ih =>
    have key : (s + h x = .nan ∨ Good (s + h x)) ∧ (s + h x = .nan ↔ s = .nan ∨ h x = .nan) := by
      rcases hs with rfl | hs
      · simp
      · rcases hh x with hx | hx
        · rw [hx]; simp
        · have := hs.add hx
          exact ⟨.inr this, ⟨fun e => absurd e this.ne_nan, fun e => by
            rcases e with e | e
            · exact absurd e hs.ne_nan
            · exact absurd e hx.ne_nan⟩⟩
    obtain ⟨h1, h2⟩ := ih (s + h x) key.1
    refine ⟨h1, ?_⟩
    rw [List.foldl_cons, h2, key.2]
    simp [or_assoc]

theorem abs_good (x : Ieee F) : absv x = .nan ∨ Good (absv x) := abs_cases x

theorem sq_good (x : Ieee F) : x * x = .nan ∨ Good (x * x) := by
  cases x with
  | fin x => exact .inr (FinArith.mul_self_nonneg x)
  | inf a => right; left; show Ieee.inf (a ^^ a) = _; simp
  | nan => exact .inl rfl

theorem sq_eq_nan {x : Ieee F} : x * x = .nan ↔ x = .nan := by
  cases x with
  | fin x => exact ⟨fun h => absurd h (FinArith.mul_ne_nan x x), fun h => (nomatch h)⟩
  | inf a => exact ⟨fun h => (nomatch h), fun h => (nomatch h)⟩
  | nan => exact ⟨fun _ => rfl, fun _ => rfl⟩

/-- C116: the maximal deviation of two dense matrices of equal size and orientation is never NaN; it is the largest of the
differences that are not NaN, and 0 if all of them are NaN. -/
theorem C116_max_deviation (root : F → F) (A B : Dense (Ieee F)) (r c : Nat) (f g : Nat → Nat → Ieee F) (hA : A.Is r c f)
    (hB : B.Is r c g) (ho : A.ori = B.ori) :
    ∃ m, A.fmaxDeviation (ops root) B = .ok m ∧ m ≠ .nan ∧
      (∀ i j, i < r → j < c → f i j - g i j = .nan ∨ absv (f i j - g i j) ≤ m) ∧
      (m = 0 ∨ ∃ i j, i < r ∧ j < c ∧ m = absv (f i j - g i j)) := by
  unfold Dense.fmaxDeviation
  rw [hA.data_eq, hB.data_eq, foldBuf2_map, ← ho]
  obtain ⟨h1, -, h3, h4⟩ := fold_max (fun t => absv (f (Dense.unpos A.ori r c t).1 (Dense.unpos A.ori r c t).2 -
    g (Dense.unpos A.ori r c t).1 (Dense.unpos A.ori r c t).2)) (List.range (r * c)) 0 (by rw [zero_def]; simp)
  refine ⟨_, rfl, h1, ?_, ?_⟩
  · intro i j hi hj
    obtain ⟨t, ht, e⟩ := unpos_surj A.ori hi hj
    have := h3 t (List.mem_range.2 ht)
    simp only [e] at this
    exact this.imp abs_eq_nan.1 id
  · rcases h4 with h4 | ⟨t, ht, h4⟩
    · exact .inl h4
    · have := unpos_lt A.ori (List.mem_range.1 ht)
      exact .inr ⟨_, _, this.1, this.2, h4⟩

/-- C116, negative: a matrix full of NaN has the maximal deviation 0 from every matrix. -/
theorem C116_nan_has_no_deviation (root : F → F) (A B : Dense (Ieee F)) (r c : Nat) (f g : Nat → Nat → Ieee F) (hA : A.Is r c f)
    (hB : B.Is r c g) (ho : A.ori = B.ori) (hf : ∀ i j, i < r → j < c → f i j = .nan) :
    A.fmaxDeviation (ops root) B = .ok 0 := by
  obtain ⟨m, e, hn, -, h⟩ := C116_max_deviation root A B r c f g hA hB ho
  rcases h with h | ⟨i, j, hi, hj, h⟩
  · rw [e, h]
  · rw [hf i j hi hj] at h; simp at h; exact absurd h hn

/-- C116: the root mean square deviation of non-empty dense matrices of equal size and orientation is NaN if one of the differences
is. -/
theorem C116_rms_deviation (root : F → F) (A B : Dense (Ieee F)) (r c : Nat) (f g : Nat → Nat → Ieee F) (hA : A.Is r c f)
    (hB : B.Is r c g) (ho : A.ori = B.ori) (i j : Nat) (hi : i < r) (hj : j < c) (hn : f i j - g i j = .nan) :
    A.frmsDeviation (ops root) B = .ok .nan := by
  unfold Dense.frmsDeviation
  rw [hA.data_eq, hB.data_eq, foldBuf2_map, ← ho]
  obtain ⟨t, ht, e⟩ := unpos_surj A.ori hi hj
  have key := (fold_add (fun t => (f (Dense.unpos A.ori r c t).1 (Dense.unpos A.ori r c t).2 -
    g (Dense.unpos A.ori r c t).1 (Dense.unpos A.ori r c t).2) * (f (Dense.unpos A.ori r c t).1 (Dense.unpos A.ori r c t).2 -
    g (Dense.unpos A.ori r c t).1 (Dense.unpos A.ori r c t).2)) (fun _ => sq_good _) (List.range (r * c)) 0
    (.inr (.inr ⟨0, le_refl _, rfl⟩))).2.2 (.inr ⟨t, List.mem_range.2 ht, by simp only [e, hn]; rfl⟩)
  show Except.ok (Ieee.sqrt root ((List.range (r * c)).foldl _ 0 / _)) = _
  erw [key]
  rfl

/-- C116: the 1-norm and the 2-norm of a dense matrix are NaN exactly if an element is; an infinite element does not make them
NaN. -/
theorem C116_norms (root : F → F) (A : Dense (Ieee F)) (r c : Nat) (f : Nat → Nat → Ieee F) (hA : A.Is r c f) (k : NormKind)
    (hk : k ≠ .max) :
    ∃ x, fnormBuf (ops root) k A.data = .ok x ∧ (x = .nan ↔ ∃ i j, i < r ∧ j < c ∧ f i j = .nan) := by
  have move : ∀ (h : Ieee F → Ieee F), (∀ x, h x = .nan ↔ x = .nan) →
      ((∃ t ∈ List.range (r * c), h (f (Dense.unpos A.ori r c t).1 (Dense.unpos A.ori r c t).2) = .nan) ↔
        ∃ i j, i < r ∧ j < c ∧ f i j = .nan) := by
    intro h hh
    constructor
    · rintro ⟨t, ht, e⟩
      have := unpos_lt A.ori (List.mem_range.1 ht)
      exact ⟨_, _, this.1, this.2, (hh _).1 e⟩
    · rintro ⟨i, j, hi, hj, e⟩
      obtain ⟨t, ht, e'⟩ := unpos_surj A.ori hi hj
      exact ⟨t, List.mem_range.2 ht, by rw [e', e]; exact (hh _).2 rfl⟩
  have z0 : (0 : Ieee F) ≠ .nan := by rw [zero_def]; simp
  have g0 : Good (0 : Ieee F) := .inr ⟨0, le_refl _, rfl⟩
  cases k with
  | max => exact absurd rfl hk
  | one =>
    rw [fnormBuf, hA.data_eq, foldBuf_map, List.foldl_map]
    refine ⟨_, rfl, ?_⟩
    have := (fold_add (fun t => absv (f (Dense.unpos A.ori r c t).1 (Dense.unpos A.ori r c t).2)) (fun _ => abs_good _)
      (List.range (r * c)) 0 (.inr g0)).2
    refine this.trans ?_
    rw [or_iff_right z0]
    exact move absv (fun _ => abs_eq_nan)
  | two =>
    rw [fnormBuf, hA.data_eq, foldBuf_map, List.foldl_map]
    refine ⟨_, rfl, ?_⟩
    obtain ⟨h1, h2⟩ := fold_add (fun t => f (Dense.unpos A.ori r c t).1 (Dense.unpos A.ori r c t).2 *
      f (Dense.unpos A.ori r c t).1 (Dense.unpos A.ori r c t).2) (fun _ => sq_good _) (List.range (r * c)) 0 (.inr g0)
    rw [or_iff_right z0] at h2
    rw [← move (fun x => x * x) (fun _ => sq_eq_nan), ← h2]
    show Ieee.sqrt root ((List.range (r * c)).foldl _ 0) = _ ↔ _
    rcases h1 with h1 | h1 | ⟨w, hw, h1⟩
    · exact ⟨fun _ => h1, fun _ => by erw [h1]; rfl⟩
    · refine ⟨fun h => ?_, fun h => by rw [h1] at h; cases h⟩
      erw [h1] at h; cases h
    · refine ⟨fun h => ?_, fun h => by rw [h1] at h; cases h⟩
      erw [h1] at h
      simp [Ieee.sqrt, not_lt.2 hw] at h

/-- C116, negative: the maximum norm of a dense matrix is never NaN: NaN elements are ignored. -/
theorem C116_max_norm (root : F → F) (A : Dense (Ieee F)) (r c : Nat) (f : Nat → Nat → Ieee F) (hA : A.Is r c f) :
    ∃ m, fnormBuf (ops root) .max A.data = .ok m ∧ m ≠ .nan ∧ (∀ i j, i < r → j < c → f i j = .nan ∨ absv (f i j) ≤ m) ∧
      (m = 0 ∨ ∃ i j, i < r ∧ j < c ∧ m = absv (f i j)) := by
  rw [fnormBuf, hA.data_eq, foldBuf_map, List.foldl_map]
  obtain ⟨h1, -, h3, h4⟩ := fold_max (fun t => absv (f (Dense.unpos A.ori r c t).1 (Dense.unpos A.ori r c t).2))
    (List.range (r * c)) 0 (by rw [zero_def]; simp)
  refine ⟨_, rfl, h1, ?_, ?_⟩
  · intro i j hi hj
    obtain ⟨t, ht, e⟩ := unpos_surj A.ori hi hj
    have := h3 t (List.mem_range.2 ht)
    simp only [e] at this
    exact this.imp abs_eq_nan.1 id
  · rcases h4 with h4 | ⟨t, ht, h4⟩
    · exact .inl h4
    · have := unpos_lt A.ori (List.mem_range.1 ht)
      exact .inr ⟨_, _, this.1, this.2, h4⟩

/-! ### Sums and products -/

/-- C116: sums of matrices of any two kinds are the IEEE sums of the elements, infinities and NaN included; so the kinds in
which the operands are stored do not matter. -/
theorem C116_sum (A B : SMat (Ieee F)) (r c : Nat) (f g : Nat → Nat → Ieee F) (hA : A.Is r c f) (hB : B.Is r c g) :
    ∃ C D, SMat.binop (· + ·) id A B = .ok C ∧ Mat.denseOf C = .ok D ∧
      ∀ i j, i < r → j < c → D.get i j = .ok (f i j + g i j) := by
  obtain ⟨C, e, hC⟩ := SMat.binop_add_seq Ieee.comm hA hB
  obtain ⟨D, d, hD⟩ := Mat.denseOf_sat hC
  exact ⟨C, D, e, d, hD.1.elems⟩

/-- C116: products of matrices of any two kinds whose elements are finite are accumulated from left to right, also if they
overflow on the way; so the kinds in which the operands are stored do not matter.  (Missing: infinite and NaN elements,
`C116_zero_hides_nan`, `C117_product`.) -/
theorem C116_product_partial (A B : SMat (Ieee F)) (m k n : Nat) (f g : Nat → Nat → Ieee F) (hA : A.Is m k f) (hB : B.Is k n g)
    (hf : ∀ i l, i < m → l < k → (f i l).Finite) (hg : ∀ l j, l < k → j < n → (g l j).Finite) :
    ∃ C D, SMat.mul A B = .ok C ∧ Mat.denseOf C = .ok D ∧ ∀ i j, i < m → j < n → D.get i j = .ok (dotSeq f g k i j) := by
  obtain ⟨C, e, hC⟩ := SMat.mul_seq' hA hB (fun i l hi hl => finite_mul_zero (hf i l hi hl)) (fun l j hl hj => finite_zero_mul (hg l j hl hj))
  obtain ⟨D, d, hD⟩ := Mat.denseOf_sat hC
  exact ⟨C, D, e, d, hD.1.elems⟩

/-- An accumulated product is NaN if one of its terms is. -/
theorem dotSeq_nan (f g : Nat → Nat → Ieee F) (k i j l : Nat) (hl : l < k) (h : f i l * g l j = .nan) : dotSeq f g k i j = .nan := by
  induction k with
  | zero => omega
  | succ k ih =>
    rw [dotSeq_succ]
    rcases Nat.lt_succ_iff_lt_or_eq.1 hl with h' | rfl
    · rw [ih h', nan_add]
    · rw [h, add_nan]

/-- C116: in the product of two dense matrices a NaN of the left operand makes its whole row NaN, one of the right operand its
whole column. -/
theorem C116_nan_propagates (A B : Dense (Ieee F)) (m k n : Nat) (f g : Nat → Nat → Ieee F) (hA : A.Is m k f) (hB : B.Is k n g)
    (hAo : A.ori = .col) (hBo : B.ori = .col) :
    ∃ D, Dense.mulGeneral A B (Dense.empty .col) = .ok D ∧ ∀ i j l, i < m → j < n → l < k →
      (f i l = .nan ∨ g l j = .nan) → D.get i j = .ok .nan := by
  obtain ⟨D, e, -, h⟩ := C21_native_product A B (Dense.empty .col) m k n f g hA hB hAo hBo rfl
  refine ⟨D, e, fun i j l hi hj hl hn => ?_⟩
  rw [h.elems i j hi hj, dotSeq_nan f g k i j l hl]
  rcases hn with hn | hn <;> rw [hn] <;> simp

/-- C116, negative: multiplied with a dense matrix of zeros, a row with an infinite or NaN element gives NaN, multiplied with a
`Matrix<Zero>` it gives zeros: the result depends on the kind in which the right operand is stored. -/
theorem C116_zero_hides_nan (A B : Dense (Ieee F)) (m k n : Nat) (f g : Nat → Nat → Ieee F) (hA : A.Is m k f) (hB : B.Is k n g)
    (hAo : A.ori = .col) (hBo : B.ori = .col) (hg : ∀ l j, l < k → j < n → g l j = 0) (i l : Nat) (hi : i < m) (hl : l < k)
    (hn : ¬ (f i l).Finite) :
    ∃ D E, SMat.mul (.dense A) (.dense B) = .ok (.dense D) ∧ (∀ j, j < n → D.get i j = .ok .nan) ∧
      SMat.mul (.dense A) (.zero (Dim.mk' k n)) = .ok (.zero E) ∧ E.rows = m ∧ E.cols = n := by
  obtain ⟨D, e, -, h⟩ := C21_native_product A B (Dense.empty .col) m k n f g hA hB hAo hBo rfl
  refine ⟨D, SMat.zeroResize (Dim.mk' 0 0) m n, by simp only [SMat.mul, e]; rfl, fun j hj => ?_, ?_, rfl, rfl⟩
  · rw [h.elems i j hi hj, dotSeq_nan f g k i j l hl]
    rw [hg l j hl hj, notFinite_mul_zero hn]
  · simp [SMat.mul, SMat.mulZero, assertThat, hA.rows, hA.cols, Dim.mk']

end BB
