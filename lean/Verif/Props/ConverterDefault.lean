import Verif.Props.Converter
import Mathlib.Tactic.FieldSimp
import Mathlib.Tactic.Linarith

/-!
# C37: the type the default thresholds choose
-/

namespace BB

variable {R : Type}

/-- Which of the seven types stores a block of `size` elements, `large` of them above the single-precision significance and
`all` of them above the double-precision significance, with the thresholds a user gets by default. -/
def defaultKind (large all size : Nat) : Kind :=
  if all = 0 then .zero
  else if large = 0 then (if 5 * all ≤ size then .sparseF else .denseF)
  else if 5 * large ≤ size then
    (if 5 * all ≤ size then .sparseD else if 5 * all ≤ 2 * size then .multSS else .multSD)
  else .denseD

theorem countAbove_mono [LinearOrder R] [Neg R] {t t' : R} (h : t ≤ t') (r c : Nat) (f : Nat → Nat → R) :
    countAbove t' r c f ≤ countAbove t r c f := by
  unfold countAbove
  refine Finset.sum_le_sum fun i _ => Finset.sum_le_sum fun j _ => ?_
  by_cases a : t' < max (f i j) (-f i j)
  · rw [if_pos a, if_pos (lt_of_le_of_lt h a)]
  · rw [if_neg a]; exact Nat.zero_le _

/-- C37: with the default thresholds the type is decided by two counts: nothing significant – zero; nothing above the
single-precision significance – single precision, sparse up to a fifth of the elements and dense beyond; up to a fifth of
the elements above it – sparse double, alone up to a fifth of significant elements, with a sparse single-precision part up
to two fifths, with a dense one beyond; otherwise dense double. -/
theorem C37_default_choice [Field R] [LinearOrder R] [IsStrictOrderedRing R] (b : Build) (rnd : R → R) (hrnd : rnd 0 = 0)
    (epsF epsD : R) (hD : 0 ≤ epsD) (hDF : epsD < epsF)
    (A : Dense R) (nr nc r0 c0 r c : Nat) (f : Nat → Nat → R) (hs : (Src.sub A nr nc r0 c0).Is r c f) :
    ∃ M, convertMatrix b rnd (Settings.default epsF epsD) (.sub A nr nc r0 c0) =
        .ok (defaultKind (countAbove epsF r c f) (countAbove epsD r c f) (r * c), M) ∧
      (defaultKind (countAbove epsF r c f) (countAbove epsD r c f) (r * c)).Matches M := by
  obtain ⟨pre, k, post, M, hl, e, hk, hpre, hm, -⟩ := C37_first_match b rnd hrnd (Settings.default epsF epsD) A nr nc r0 c0 r c f hs
    hD hDF (le_refl _) (le_refl _)
  obtain ⟨hr, hc⟩ : 0 < r ∧ 0 < c := ⟨hs.2.2.1, hs.2.2.2.1⟩
  have hpos : 0 < r * c := Nat.mul_pos hr hc
  have hle := countAbove_mono hDF.le r c f
  have frac : ∀ (n p q : Nat), 0 < q → ((n : R) / ((r * c : Nat) : R) ≤ (p : R) / (q : R) ↔ q * n ≤ p * (r * c)) := by
    intro n p q hq
    rw [div_le_div_iff₀ (by exact_mod_cast hpos) (by exact_mod_cast hq)]
    constructor
    · intro h
      have : n * q ≤ p * (r * c) := by exact_mod_cast h
      rwa [Nat.mul_comm] at this
    · intro h
      have : n * q ≤ p * (r * c) := by rwa [Nat.mul_comm]
      exact_mod_cast this
  have f0 : ∀ n : Nat, ((n : R) / ((r * c : Nat) : R) ≤ 0 ↔ n = 0) := by
    intro n
    have := frac n 0 1 (by omega)
    simp only [Nat.cast_zero, zero_div] at this
    rw [this]; omega
  have f1 : ∀ n : Nat, ((n : R) / ((r * c : Nat) : R) ≤ 1 ↔ n ≤ r * c) := by
    intro n
    have := frac n 1 1 (by omega)
    simp only [Nat.cast_one, div_one, Nat.one_mul] at this
    exact this
  have f5 : ∀ n : Nat, ((n : R) / ((r * c : Nat) : R) ≤ 1 / 5 ↔ 5 * n ≤ r * c) := by
    intro n
    have := frac n 1 5 (by omega)
    simpa using this
  have f25 : ∀ n : Nat, ((n : R) / ((r * c : Nat) : R) ≤ 2 / 5 ↔ 5 * n ≤ 2 * (r * c)) := by
    intro n
    have := frac n 2 5 (by omega)
    simpa using this
  have bD := countAbove_le epsD r c f
  have bF := countAbove_le epsF r c f
  have F : ∀ k', Fulfils (Settings.default epsF epsD) r c f k' ↔
      match k' with
      | .zero => countAbove epsD r c f = 0 ∧ countAbove epsF r c f = 0
      | .sparseF => 5 * countAbove epsD r c f ≤ r * c ∧ countAbove epsF r c f = 0
      | .denseF => countAbove epsD r c f ≤ r * c ∧ countAbove epsF r c f = 0
      | .sparseD => 5 * countAbove epsD r c f ≤ r * c ∧ 5 * countAbove epsF r c f ≤ r * c
      | .multSS => 5 * countAbove epsD r c f ≤ 2 * (r * c) ∧ 5 * countAbove epsF r c f ≤ r * c
      | .multSD => countAbove epsD r c f ≤ r * c ∧ 5 * countAbove epsF r c f ≤ r * c
      | .denseD => countAbove epsD r c f ≤ r * c ∧ countAbove epsF r c f ≤ r * c := by
    intro k'
    cases k' <;> simp only [Fulfils, Settings.occ, Settings.default, f0, f1, f5, f25]
  have key : k = defaultKind (countAbove epsF r c f) (countAbove epsD r c f) (r * c) := by
    generalize countAbove epsF r c f = nF at *
    generalize countAbove epsD r c f = nD at *
    generalize r * c = sz at *
    clear f0 f1 f5 f25 frac e hm
    rcases pre with _ | ⟨a1, _ | ⟨a2, _ | ⟨a3, _ | ⟨a4, _ | ⟨a5, _ | ⟨a6, _ | ⟨a7, tl⟩⟩⟩⟩⟩⟩⟩ <;>
      simp only [List.nil_append, List.cons_append, List.cons.injEq] at hl <;>
      [skip; skip; skip; skip; skip; skip; skip; (exfalso; simp at hl)]
    all_goals
      (obtain ⟨rfl, hl⟩ := hl; try obtain ⟨rfl, hl⟩ := hl; try obtain ⟨rfl, hl⟩ := hl; try obtain ⟨rfl, hl⟩ := hl
       try obtain ⟨rfl, hl⟩ := hl; try obtain ⟨rfl, hl⟩ := hl; try obtain ⟨rfl, hl⟩ := hl)
    all_goals
      simp only [F, List.mem_cons, List.not_mem_nil, or_false, forall_eq_or_imp, forall_eq] at hk hpre
      unfold defaultKind
      repeat' split
      all_goals first | rfl | (exfalso; omega)
  rw [← key]
  exact ⟨M, e, hm⟩

/-- Every type occurs. -/
example : [defaultKind 0 0 100, defaultKind 0 20 100, defaultKind 0 21 100, defaultKind 20 20 100, defaultKind 20 40 100,
    defaultKind 20 41 100, defaultKind 21 21 100] = typeList := by decide

/-- A concrete block meets the hypotheses: one large, one small element among ten, hence sparse double. -/
example : ∃ M, convertMatrix .debug id (Settings.default (1/10 : ℚ) (1/100))
      (.sub (Dense.ofFn .col 4 5 (fun i j => if i = 1 ∧ j = 1 then 3 else if i = 1 ∧ j = 2 then 1/20 else 0)) 2 5 1 0) =
      .ok (.sparseD, M) := by
  have hs : (Src.sub (Dense.ofFn .col 4 5 (fun i j => if i = 1 ∧ j = 1 then (3 : ℚ) else if i = 1 ∧ j = 2 then 1/20 else 0)) 2 5 1 0).Is 2 5
      (fun i j => if i = 0 ∧ j = 1 then 3 else if i = 0 ∧ j = 2 then 1/20 else 0) := by
    refine ⟨rfl, rfl, by decide, by decide, rfl, 4, 5, _, Dense.ofFn_is _ _ _ _, by decide, by decide, by decide, by decide, ?_⟩
    intro i j _ _
    simp
  obtain ⟨M, e, -⟩ := C37_default_choice .debug id rfl (1/10) (1/100) (by norm_num) (by norm_num) _ _ _ _ _ _ _ _ hs
  refine ⟨M, e.trans ?_⟩
  have h1 : countAbove (1/10 : ℚ) 2 5 (fun i j => if i = 0 ∧ j = 1 then 3 else if i = 0 ∧ j = 2 then 1/20 else 0) = 1 := by
    norm_num [countAbove, Finset.sum_range_succ]
  have h2 : countAbove (1/100 : ℚ) 2 5 (fun i j => if i = 0 ∧ j = 1 then 3 else if i = 0 ∧ j = 2 then 1/20 else 0) = 2 := by
    norm_num [countAbove, Finset.sum_range_succ]
  rw [h1, h2]
  rfl

end BB
