import Verif.SpecNormFp
import Verif.Lemmas.TypedFp
import Mathlib.Algebra.Order.Round
import Mathlib.Algebra.Order.Archimedean.Real.Basic
import Mathlib.Algebra.Order.Ring.Abs

/-! `double` as binary floating point numbers: what the theorems about norms assume of it holds. -/

namespace BB

/-- The real number `x` rounded to nearest with `p` significant bits. -/
noncomputable def flR (p : Nat) (x : ℝ) : ℚ :=
  if x = 0 then 0 else round (x / 2 ^ (Int.log 2 |x| - p + 1)) * 2 ^ (Int.log 2 |x| - p + 1)

theorem flR_err (p : Nat) (x : ℝ) : |(flR p x : ℝ) - x| ≤ (2 : ℝ) ^ (-(p : Int)) * |x| := by
  by_cases hx : x = 0
  · subst hx; simp [flR]
  · have ha : 0 < |x| := abs_pos.mpr hx
    unfold flR
    rw [if_neg hx]
    have he : (2 : ℝ) ^ Int.log 2 |x| ≤ |x| := by
      have := Int.zpow_log_le_self (b := 2) (r := |x|) (by norm_num) ha
      exact_mod_cast this
    generalize Int.log 2 |x| = e at he
    have h2 : (0 : ℝ) < 2 ^ (e - p + 1) := by positivity
    have hn := abs_sub_round (x / 2 ^ (e - (p : Int) + 1))
    rw [abs_sub_comm] at hn
    generalize round (x / 2 ^ (e - (p : Int) + 1)) = m at hn
    push_cast
    have h3 : (m : ℝ) * 2 ^ (e - (p : Int) + 1) - x = (m - x / 2 ^ (e - (p : Int) + 1)) * 2 ^ (e - (p : Int) + 1) := by
      field_simp
    rw [h3, abs_mul, abs_of_pos h2]
    have h4 : (2 : ℝ) ^ (e - (p : Int) + 1) = 2 * (2 ^ (-(p : Int)) * 2 ^ e) := by
      rw [← zpow_add₀ (by norm_num), ← zpow_one_add₀ (by norm_num)]; congr 1; ring
    have h5 : (0 : ℝ) < 2 ^ (-(p : Int)) := by positivity
    calc _ ≤ 1 / 2 * (2 : ℝ) ^ (e - (p : Int) + 1) := by gcongr
      _ = (2 : ℝ) ^ (-(p : Int)) * (2 : ℝ) ^ e := by rw [h4]; ring
      _ ≤ _ := by gcongr

theorem flR_rep (p : Nat) (x : ℝ) : HasBits p (flR p x) := by
  by_cases hx : x = 0
  · exact ⟨0, 0, by positivity, by simp [flR, hx]⟩
  · have ha : 0 < |x| := abs_pos.mpr hx
    unfold flR
    rw [if_neg hx]
    refine ⟨_, _, ?_, rfl⟩
    have he : |x| < (2 : ℝ) ^ (Int.log 2 |x| + 1) := by
      have := Int.lt_zpow_succ_log_self (b := 2) (by norm_num) (|x|)
      exact_mod_cast this
    generalize Int.log 2 |x| = e at he
    have hn := abs_sub_round (x / 2 ^ (e - (p : Int) + 1))
    rw [abs_sub_comm] at hn
    have hy : |x / 2 ^ (e - (p : Int) + 1)| < 2 ^ p := by
      have h2 : (0 : ℝ) < 2 ^ (e - (p : Int) + 1) := by positivity
      rw [abs_div, abs_of_pos h2, div_lt_iff₀ h2]
      have : (2 : ℝ) ^ p * 2 ^ (e - (p : Int) + 1) = 2 ^ (e + 1) := by
        rw [← zpow_natCast, ← zpow_add₀ (by norm_num)]; congr 1; ring
      rw [this]; exact he
    generalize x / 2 ^ (e - (p : Int) + 1) = y at hn hy
    generalize round y = m at hn
    have h1 : |(m : ℝ)| < 2 ^ p + 1 := by
      have : |(m : ℝ)| ≤ |(m : ℝ) - y| + |y| := by
        have := abs_add_le ((m : ℝ) - y) y; simpa using this
      linarith
    have h2 : ((|m| : Int) : ℝ) < ((2 ^ p + 1 : Int) : ℝ) := by push_cast; exact h1
    have h3 := Int.cast_lt.mp h2
    omega

namespace Fp

variable {p : Nat} {md : Mode}

/-- Absolute values of floating point numbers are floating point numbers. -/
theorem abs_rep {x : ℚ} (h : HasBits p x) : HasBits p |x| := by
  rcases abs_choice x with e | e
  · rw [e]; exact h
  · rw [e]; exact h.neg

/-- The operations on floating point numbers, each the exact result rounded to nearest. -/
noncomputable def ops : FOps (Fp p md) where
  abs x := ⟨|x.val|, abs_rep x.rep⟩
  sq x := of (x.val ^ 2)
  sqrt x := ⟨flR p √(x.val : ℝ), flR_rep p _⟩
  max x y := Max.max x y
  sub x y := of (x.val - y.val)
  div x y := of (x.val / y.val)
  count n := of n

theorem err_cast (x y : ℚ) (h : fl p md x = y) : |(y : ℝ) - (x : ℝ)| ≤ (2 : ℝ) ^ (-(p : Int)) * |(x : ℝ)| := by
  have := fl_err p md x
  rw [h] at this
  have h2 : ((|y - x| : ℚ) : ℝ) ≤ (((2 : ℚ) ^ (-(p : Int)) * |x| : ℚ) : ℝ) := Rat.cast_le.2 this
  push_cast at h2
  exact h2

/-- Floating point numbers obey the error model of the norm functions, with unit roundoff 2^-p. -/
theorem normRounding [NeZero p] : NormRounding (ops (p := p) (md := md)) (fun x => (x.val : ℝ)) ((2 : ℝ) ^ (-(p : Int))) where
  nonneg := by positivity
  lt_one := by
    have := NeZero.pos p
    exact zpow_lt_one_of_neg₀ (by norm_num) (by omega)
  zero := by simp [zero_val]
  add a b := by have := err_cast (p := p) (md := md) (a.val + b.val) _ rfl; push_cast at this; exact this
  sub a b := by have := err_cast (p := p) (md := md) (a.val - b.val) _ rfl; push_cast at this; exact this
  div a b _ := by have := err_cast (p := p) (md := md) (a.val / b.val) _ rfl; push_cast at this; exact this
  abs a := by show ((|a.val| : ℚ) : ℝ) = _; push_cast; rfl
  sq a := by
    have := err_cast (p := p) (md := md) (a.val ^ 2) _ rfl
    push_cast at this
    rwa [abs_of_nonneg (sq_nonneg (a.val : ℝ))] at this
  sqrt a _ := by
    have := flR_err p √(a.val : ℝ)
    rwa [abs_of_nonneg (Real.sqrt_nonneg _)] at this
  max a b := by
    show ((Max.max a b).val : ℝ) = _
    rcases le_total a b with h | h
    · rw [max_eq_right h, max_eq_right]; exact_mod_cast (show a.val ≤ b.val from h)
    · rw [max_eq_left h, max_eq_left]; exact_mod_cast (show b.val ≤ a.val from h)

/-- Counts of at most 2^p are floating point numbers. -/
theorem count_exact [NeZero p] (n : Nat) (h : n ≤ 2 ^ p) : (((ops (p := p) (md := md)).count n).val : ℝ) = n := by
  show ((fl p md (n : ℚ) : ℚ) : ℝ) = n
  rw [fl_id (NeZero.ne p) md ⟨n, 0, by rw [abs_of_nonneg (by positivity)]; exact_mod_cast h, by simp⟩]
  simp

end Fp

end BB
