import Verif.Model.Generator
import Verif.Lemmas.Dense

/-! C79: random matrices. -/

namespace BB.Generator

variable {E : Type}

/-- The engine after `t` elements were drawn. -/
noncomputable def after (G : Engine E) (s : Settings) (b : Bool) : Nat → E
  | 0 => G.seed s.seed
  | t+1 => (value G s b (after G s b t)).2

theorem generate_sat (G : Engine E) (s : Settings) (b : Bool) (rows cols : Nat) (hs : s.minValue ≤ s.maxValue) :
    Sat (generate G s b rows cols) (fun D => D.Is rows cols (fun i j => (value G s b (after G s b (i + j * rows))).1) ∧ D.ori = .col) := by
  unfold generate
  rw [if_neg (not_lt.2 hs)]
  refine Sat.bind (Sat.raw (fun k (u : E × Buf ℝ) => u.1 = after G s b k ∧ u.2.length = rows * cols ∧
    ∀ t, t < k → u.2[t]? = some (some (value G s b (after G s b t)).1)) ?_ ?_) ?_
  · exact ⟨rfl, by simp [Dense.new], fun t ht => absurd ht (Nat.not_lt_zero _)⟩
  · rintro k ⟨e, d⟩ hk ⟨rfl, hl, hd⟩
    simp only at hl hd ⊢
    have hk' : k < rows * cols := by simpa [Dense.new] using hk
    unfold step
    dsimp only
    refine Sat.writeRaw (by omega) ?_
    intro b' hl' hb'
    refine Sat.pure ⟨rfl, by simp only; omega, fun t ht => ?_⟩
    simp only
    rw [hb' t]
    by_cases e : t = k
    · rw [if_pos e, e]
    · rw [if_neg e]; exact hd t (by omega)
  · rintro ⟨e, d⟩ ⟨-, hl, hd⟩
    refine Sat.pure ⟨Dense.is_of_raw hl (fun t ht => ?_), rfl⟩
    rw [hd t (by simpa [Dense.new] using ht)]
    show _ = some (some (value G s b (after G s b (t % rows + t / rows * rows))).1)
    have e : t % rows + t / rows * rows = t := by rw [Nat.mul_comm]; exact Nat.mod_add_div t rows
    rw [e]

theorem value_range {G : Engine E} (hG : G.Conforms) {s : Settings} (hs : s.minValue ≤ s.maxValue) (b : Bool) (e : E) :
    (10:ℝ) ^ (-s.maxValue) ≤ |(value G s b e).1| ∧ |(value G s b e).1| ≤ (10:ℝ) ^ (-s.minValue) := by
  have key : ∀ (x : Bool) (d : ℝ), s.minValue ≤ d → d ≤ s.maxValue →
      (10:ℝ) ^ (-s.maxValue) ≤ |(if x then -1 else 1) * (10:ℝ) ^ (-d)| ∧ |(if x then -1 else 1) * (10:ℝ) ^ (-d)| ≤ (10:ℝ) ^ (-s.minValue) := by
    intro x d h1 h2
    have : |(if x then -1 else 1) * (10:ℝ) ^ (-d)| = (10:ℝ) ^ (-d) := by
      have hp : (0:ℝ) < (10:ℝ) ^ (-d) := Real.rpow_pos_of_pos (by norm_num) _
      cases x <;> simp [abs_of_pos hp]
    rw [this]
    constructor <;> exact Real.rpow_le_rpow_of_exponent_le (by norm_num) (by linarith)
  unfold value
  cases b
  · exact key _ _ (hG _ _ _ hs).1 (hG _ _ _ hs).2
  · exact key _ _ (hG _ _ _ hs).1 (hG _ _ _ hs).2

/-- C79: whatever the seed, the sizes and the order of evaluation, the generator sets every element of a matrix of the
requested dimensions to a number of magnitude between 10^-max and 10^-min. -/
theorem C79_generate {G : Engine E} (hG : G.Conforms) (s : Settings) (hs : s.minValue ≤ s.maxValue) (b : Bool) (rows cols : Nat) :
    ∃ D f, generate G s b rows cols = .ok D ∧ D.Is rows cols f ∧ ∀ i j, i < rows → j < cols →
      (10:ℝ) ^ (-s.maxValue) ≤ |f i j| ∧ |f i j| ≤ (10:ℝ) ^ (-s.minValue) := by
  obtain ⟨D, e, h, -⟩ := generate_sat G s b rows cols hs
  exact ⟨D, _, e, h, fun i j _ _ => value_range hG hs b _⟩

/-- C79: the default settings are seed 0 and exponents from 0 to 9. -/
theorem C79_default_settings (G : Engine E) (o : ℝ) (b : Bool) (rows cols : Nat) :
    generate G .default b rows cols = generate G ⟨0, o, 0, 9⟩ b rows cols := rfl

/-- C79 with the default settings: the magnitudes are between 10^-9 and 1. -/
theorem C79_default {G : Engine E} (hG : G.Conforms) (b : Bool) (rows cols : Nat) :
    ∃ D f, generate G .default b rows cols = .ok D ∧ D.Is rows cols f ∧ ∀ i j, i < rows → j < cols → 1 / 10 ^ 9 ≤ |f i j| ∧ |f i j| ≤ 1 := by
  obtain ⟨D, f, e, h, hf⟩ := C79_generate hG .default (by simp [Settings.default]) b rows cols
  refine ⟨D, f, e, h, fun i j hi hj => ?_⟩
  have := hf i j hi hj
  simp only [Settings.default, neg_zero, Real.rpow_zero] at this
  have e9 : (10:ℝ) ^ (-(9:ℝ)) = 1 / 10 ^ 9 := by
    rw [Real.rpow_neg (by norm_num), one_div]
    norm_num
  rw [e9] at this
  exact this

/-- C79: the same settings give the same elements, also for a matrix with more columns: the common columns agree. -/
theorem C79_reproducible_partial (G : Engine E) (s : Settings) (hs : s.minValue ≤ s.maxValue) (b : Bool) (rows c1 c2 : Nat) :
    ∃ D1 D2 f1 f2, generate G s b rows c1 = .ok D1 ∧ generate G s b rows c2 = .ok D2 ∧ D1.Is rows c1 f1 ∧ D2.Is rows c2 f2 ∧
      ∀ i j, i < rows → j < c1 → j < c2 → f1 i j = f2 i j := by
  obtain ⟨D1, e1, h1, -⟩ := generate_sat G s b rows c1 hs
  obtain ⟨D2, e2, h2, -⟩ := generate_sat G s b rows c2 hs
  exact ⟨D1, D2, _, _, e1, e2, h1, h2, fun _ _ _ _ _ => rfl⟩

/-- C79 is false for the setting `occupation`: it changes nothing, no element is ever 0. -/
theorem C79_occupation_is_ignored {G : Engine E} (hG : G.Conforms) (s : Settings) (o : ℝ) (hs : s.minValue ≤ s.maxValue) (b : Bool) (rows cols : Nat) :
    generate G { s with occupation := o } b rows cols = generate G s b rows cols ∧
    ∃ D f, generate G { s with occupation := o } b rows cols = .ok D ∧ D.Is rows cols f ∧ ∀ i j, i < rows → j < cols → f i j ≠ 0 := by
  refine ⟨rfl, ?_⟩
  obtain ⟨D, f, e, h, hf⟩ := C79_generate hG { s with occupation := o } hs b rows cols
  refine ⟨D, f, e, h, fun i j hi hj h0 => ?_⟩
  have := (hf i j hi hj).1
  rw [h0, abs_zero] at this
  exact absurd this (not_le.2 (Real.rpow_pos_of_pos (by norm_num) _))

/-- An engine that meets the contract: the state counts the numbers drawn. -/
noncomputable def counter : Engine Nat :=
  ⟨fun n => n, fun e => (e % 2 == 1, e + 1), fun a b e => (if e = 0 then a else b, e + 1)⟩

theorem counter_conforms : counter.Conforms := by
  intro a b e h
  simp only [counter]
  split
  · exact ⟨le_rfl, h⟩
  · exact ⟨h, le_rfl⟩

/-- C79 is false across compilers: the seed alone does not determine the matrix, the order of evaluation does too. -/
theorem C79_order_matters : ∃ (G : Engine Nat) (s : Settings), G.Conforms ∧ s.minValue ≤ s.maxValue ∧
    ∃ D1 D2 f1 f2, generate G s true 1 1 = .ok D1 ∧ generate G s false 1 1 = .ok D2 ∧ D1.Is 1 1 f1 ∧ D2.Is 1 1 f2 ∧ f1 0 0 ≠ f2 0 0 := by
  refine ⟨counter, .default, counter_conforms, by simp [Settings.default], ?_⟩
  obtain ⟨D1, e1, h1, -⟩ := generate_sat counter .default true 1 1 (by simp [Settings.default])
  obtain ⟨D2, e2, h2, -⟩ := generate_sat counter .default false 1 1 (by simp [Settings.default])
  refine ⟨D1, D2, _, _, e1, e2, h1, h2, ?_⟩
  have hp : (0:ℝ) < (10:ℝ) ^ (-(9:ℝ)) := Real.rpow_pos_of_pos (by norm_num) _
  simp [value, after, counter, Settings.default]
  linarith

/-- C79 is false for settings with `maxValue < minValue`: nothing rejects them and the behaviour is undefined. -/
theorem C79_bad_range_is_ub (G : Engine E) (s : Settings) (h : s.maxValue < s.minValue) (b : Bool) (rows cols : Nat) :
    generate G s b rows cols = .error .ub := by
  unfold generate
  rw [if_pos h]

end BB.Generator
