import Verif.SpecFloat
import Verif.Lemmas.DenseMul
import Mathlib.Tactic.Linarith
import Mathlib.Tactic.Ring
import Mathlib.Tactic.Positivity
import Mathlib.Tactic.FieldSimp
import Mathlib.Tactic.NormNum
import Mathlib.Algebra.Order.BigOperators.Group.Finset
import Mathlib.Algebra.Order.Field.Power

/-! Binary floating point numbers satisfy the laws and the error model that the theorems assume. -/

namespace BB

theorem fl_zero (p : Nat) (md : Mode) : fl p md 0 = 0 := by simp [fl]

/-- Rounding has a relative error of at most 2^-p. -/
theorem fl_err (p : Nat) (md : Mode) (x : ℚ) : |fl p md x - x| ≤ (2 : ℚ) ^ (-(p : Int)) * |x| := by
  by_cases hx : x = 0
  · subst hx; simp [fl_zero]
  · have ha : 0 < |x| := abs_pos.mpr hx
    unfold fl
    rw [if_neg hx]
    have he : (2 : ℚ) ^ Int.log 2 |x| ≤ |x| := by
      have := Int.zpow_log_le_self (b := 2) (r := |x|) (by norm_num) ha
      exact_mod_cast this
    generalize Int.log 2 |x| = e at he
    have h2 : (0 : ℚ) < 2 ^ (e - p + 1) := by positivity
    have hn := md.near (x / 2 ^ (e - (p : Int) + 1))
    generalize md.rn (x / 2 ^ (e - (p : Int) + 1)) = m at hn
    have h3 : (m : ℚ) * 2 ^ (e - (p : Int) + 1) - x = (m - x / 2 ^ (e - (p : Int) + 1)) * 2 ^ (e - (p : Int) + 1) := by
      field_simp
    rw [h3, abs_mul, abs_of_pos h2]
    have h4 : (2 : ℚ) ^ (e - (p : Int) + 1) = 2 * (2 ^ (-(p : Int)) * 2 ^ e) := by
      rw [← zpow_add₀ (by norm_num), ← zpow_one_add₀ (by norm_num)]; congr 1; ring
    have h5 : (0 : ℚ) < 2 ^ (-(p : Int)) := by positivity
    calc _ ≤ 1 / 2 * (2 : ℚ) ^ (e - (p : Int) + 1) := by gcongr
      _ = (2 : ℚ) ^ (-(p : Int)) * (2 : ℚ) ^ e := by rw [h4]; ring
      _ ≤ _ := by gcongr

theorem fl_rep (p : Nat) (md : Mode) (x : ℚ) : HasBits p (fl p md x) := by
  by_cases hx : x = 0
  · exact ⟨0, 0, by positivity, by simp [fl, hx]⟩
  · have ha : 0 < |x| := abs_pos.mpr hx
    unfold fl
    rw [if_neg hx]
    refine ⟨_, _, ?_, rfl⟩
    have he : |x| < (2 : ℚ) ^ (Int.log 2 |x| + 1) := by
      have := Int.lt_zpow_succ_log_self (b := 2) (by norm_num) (|x|)
      exact_mod_cast this
    generalize Int.log 2 |x| = e at he
    have hn := md.near (x / 2 ^ (e - (p : Int) + 1))
    have hy : |x / 2 ^ (e - (p : Int) + 1)| < 2 ^ p := by
      have h2 : (0 : ℚ) < 2 ^ (e - (p : Int) + 1) := by positivity
      rw [abs_div, abs_of_pos h2, div_lt_iff₀ h2]
      have : (2 : ℚ) ^ p * 2 ^ (e - (p : Int) + 1) = 2 ^ (e + 1) := by
        rw [← zpow_natCast, ← zpow_add₀ (by norm_num)]; congr 1; ring
      rw [this]; exact he
    generalize x / 2 ^ (e - (p : Int) + 1) = y at hn hy
    generalize md.rn y = m at hn
    have h1 : |(m : ℚ)| < 2 ^ p + 1 := by
      have : |(m : ℚ)| ≤ |(m : ℚ) - y| + |y| := by
        have := abs_add_le ((m : ℚ) - y) y; simpa using this
      linarith
    have h2 : ((|m| : Int) : ℚ) < ((2 ^ p + 1 : Int) : ℚ) := by push_cast; exact h1
    have h3 := Int.cast_lt.mp h2
    omega

theorem near_int (md : Mode) (m : Int) : md.rn (m : ℚ) = m := by
  have h := md.near (m : ℚ)
  have h1 : |((md.rn m - m : Int) : ℚ)| ≤ 1 / 2 := by push_cast; exact h
  have h2 : ((|md.rn m - m| : Int) : ℚ) < ((1 : Int) : ℚ) := by push_cast at h1 ⊢; linarith
  have h3 := Int.cast_lt.mp h2
  have h4 := Int.abs_lt_one_iff.mp h3
  omega

/-- Numbers with a p-bit significand are not changed by rounding. -/
theorem fl_id {p : Nat} (hp : p ≠ 0) (md : Mode) {x : ℚ} (h : HasBits p x) : fl p md x = x := by
  by_cases hx : x = 0
  · subst hx; exact fl_zero p md
  · have ha : 0 < |x| := abs_pos.mpr hx
    obtain ⟨m, s, hm, hms⟩ := h
    have he : (2 : ℚ) ^ Int.log 2 |x| ≤ |x| := by
      have := Int.zpow_log_le_self (b := 2) (r := |x|) (by norm_num) ha
      exact_mod_cast this
    unfold fl
    rw [if_neg hx]
    generalize Int.log 2 |x| = e at he
    -- x is an integer multiple of the last place
    have key : ∃ k : Int, x = k * 2 ^ (e - (p : Int) + 1) := by
      by_cases hs : e - (p : Int) + 1 ≤ s
      · refine ⟨m * 2 ^ (s - (e - p + 1)).toNat, ?_⟩
        push_cast
        rw [mul_assoc, ← zpow_natCast, ← zpow_add₀ (by norm_num), hms]
        congr 2
        omega
      · have hx2 : |x| = |m| * 2 ^ s := by
          rw [hms, abs_mul, abs_of_pos (by positivity : (0 : ℚ) < 2 ^ s)]; push_cast; rfl
        have h1 : |x| ≤ 2 ^ ((p : Int) + s) := by
          rw [hx2, zpow_add₀ (by norm_num), zpow_natCast]
          have : ((|m| : Int) : ℚ) ≤ 2 ^ p := by exact_mod_cast hm
          gcongr
        have h2 : (2 : ℚ) ^ e ≤ 2 ^ ((p : Int) + s) := he.trans h1
        have h3 : e ≤ (p : Int) + s := (zpow_le_zpow_iff_right₀ (by norm_num)).mp h2
        have h4 : e = p + s := by omega
        subst h4
        have h5 : |x| = 2 ^ ((p : Int) + s) := le_antisymm h1 he
        have h6 : ∃ q : Nat, p = q + 1 := ⟨p - 1, by omega⟩
        obtain ⟨q, rfl⟩ := h6
        rcases abs_choice x with hc | hc
        · refine ⟨2 ^ q, ?_⟩
          rw [← hc, h5]; push_cast
          rw [← zpow_natCast, ← zpow_add₀ (by norm_num)]
          congr 1; ring
        · refine ⟨-2 ^ q, ?_⟩
          have : x = -|x| := by rw [hc]; ring
          rw [this, h5]; push_cast
          rw [← zpow_natCast, neg_mul, ← zpow_add₀ (by norm_num)]
          congr 2; ring
    obtain ⟨k, hk⟩ := key
    have h2 : (2 : ℚ) ^ (e - (p : Int) + 1) ≠ 0 := by positivity
    have : x / 2 ^ (e - (p : Int) + 1) = k := by rw [hk]; field_simp
    rw [this, near_int, ← hk]

namespace Fp

variable {p : Nat} {md : Mode}

@[ext] theorem ext {a b : Fp p md} (h : a.val = b.val) : a = b := by
  cases a; cases b; cases h; rfl

instance : DecidableEq (Fp p md) := fun a b =>
  if h : a.val = b.val then isTrue (ext h) else isFalse (fun e => h (by rw [e]))

/-- `x` rounded to a floating point number. -/
def of (x : ℚ) : Fp p md := ⟨fl p md x, fl_rep p md x⟩

instance : Zero (Fp p md) := ⟨⟨0, 0, 0, by positivity, by simp⟩⟩
instance : Add (Fp p md) := ⟨fun a b => of (a.val + b.val)⟩
instance : Mul (Fp p md) := ⟨fun a b => of (a.val * b.val)⟩

theorem zero_val : (0 : Fp p md).val = 0 := rfl
theorem add_val (a b : Fp p md) : (a + b).val = fl p md (a.val + b.val) := rfl
theorem mul_val (a b : Fp p md) : (a * b).val = fl p md (a.val * b.val) := rfl

/-- Floating point numbers have the laws assumed of rounding arithmetic. -/
instance instCommArith [NeZero p] : CommArith (Fp p md) where
  zero_add a := ext (by rw [add_val, zero_val, _root_.zero_add, fl_id (NeZero.ne p) md a.rep])
  add_zero a := ext (by rw [add_val, zero_val, _root_.add_zero, fl_id (NeZero.ne p) md a.rep])
  zero_mul a := ext (by rw [mul_val, zero_val, MulZeroClass.zero_mul, fl_zero])
  mul_zero a := ext (by rw [mul_val, zero_val, MulZeroClass.mul_zero, fl_zero])
  add_comm' a b := ext (by rw [add_val, add_val, _root_.add_comm])

/-- Floating point numbers obey the error model with unit roundoff 2^-p. -/
theorem rounding : Rounding (Fp.val (p := p) (md := md)) ((2 : ℚ) ^ (-(p : Int))) where
  nonneg := by positivity
  zero := rfl
  add a b := fl_err p md _
  mul a b := fl_err p md _

end Fp

theorem roundEven_near (x : ℚ) : |(roundEven x : ℚ) - x| ≤ 1 / 2 := by
  have h1 := Int.floor_le x
  have h2 := Int.lt_floor_add_one x
  unfold roundEven
  rw [abs_le]
  split
  · constructor <;> linarith
  · split
    · push_cast; constructor <;> linarith
    · split
      · constructor <;> linarith
      · push_cast; constructor <;> linarith

/-- The rounding mode of IEEE 754: to nearest, ties to even. -/
def ieee : Mode := ⟨roundEven, roundEven_near⟩

/-! ### Error calculus -/

/-- `x` approximates `e` with an error of at most (1+u)^n - 1 relative to `w`. -/
def Near (u : ℚ) (n : Nat) (x e w : ℚ) : Prop := |x - e| ≤ ((1 + u) ^ n - 1) * w ∧ |e| ≤ w

theorem Near.mono {u : ℚ} (hu : 0 ≤ u) {n n' : Nat} (h : n ≤ n') {x e w : ℚ} (hx : Near u n x e w) : Near u n' x e w := by
  refine ⟨hx.1.trans ?_, hx.2⟩
  have hw : 0 ≤ w := (abs_nonneg e).trans hx.2
  have : (1 + u) ^ n ≤ (1 + u) ^ n' := pow_le_pow_right₀ (by linarith) h
  nlinarith

theorem Near.add {R : Type} [Zero R] [Add R] [Mul R] {val : R → ℚ} {u : ℚ} (hr : Rounding val u) {n : Nat} {x y : R}
    {e w e' w' : ℚ} (hx : Near u n (val x) e w) (hy : Near u n (val y) e' w') :
    Near u (n + 1) (val (x + y)) (e + e') (w + w') := by
  have hu := hr.nonneg
  have h1 := hr.add x y
  have hxy : |val x + val y - (e + e')| ≤ ((1 + u) ^ n - 1) * (w + w') := by
    calc _ = |(val x - e) + (val y - e')| := by congr 1; ring
      _ ≤ |val x - e| + |val y - e'| := abs_add_le _ _
      _ ≤ _ := by have := hx.1; have := hy.1; linarith
  have hE : |e + e'| ≤ w + w' := (abs_add_le _ _).trans (add_le_add hx.2 hy.2)
  have hs : |val x + val y| ≤ (1 + u) ^ n * (w + w') := by
    calc |val x + val y| = |(val x + val y - (e + e')) + (e + e')| := by congr 1; ring
      _ ≤ _ := abs_add_le _ _
      _ ≤ ((1 + u) ^ n - 1) * (w + w') + (w + w') := add_le_add hxy hE
      _ = _ := by ring
  refine ⟨?_, hE⟩
  calc |val (x + y) - (e + e')| = |(val (x + y) - (val x + val y)) + (val x + val y - (e + e'))| := by congr 1; ring
    _ ≤ _ := abs_add_le _ _
    _ ≤ u * ((1 + u) ^ n * (w + w')) + ((1 + u) ^ n - 1) * (w + w') := by
      refine add_le_add (h1.trans ?_) hxy
      exact mul_le_mul_of_nonneg_left hs hu
    _ = _ := by ring

theorem Near.mul {R : Type} [Zero R] [Add R] [Mul R] {val : R → ℚ} {u : ℚ} (hr : Rounding val u) (x y : R) :
    Near u 1 (val (x * y)) (val x * val y) (|val x| * |val y|) := by
  refine ⟨?_, (abs_mul _ _).le⟩
  have := hr.mul x y
  rw [abs_mul (val x)] at this
  simpa using this

theorem Near.zero {u : ℚ} (n : Nat) (hu : 0 ≤ u) : Near u n 0 0 0 := by simp [Near]

/-- The error of a row-by-column product of length k. -/
theorem Near.dot {R : Type} [Arith R] {val : R → ℚ} {u : ℚ} (hr : Rounding val u) (f g : Nat → Nat → R) (k i j : Nat) :
    Near u k (val (dotSeq f g k i j)) (∑ l ∈ Finset.range k, val (f i l) * val (g l j))
      (∑ l ∈ Finset.range k, |val (f i l)| * |val (g l j)|) := by
  induction k with
  | zero => simpa [dotSeq_zero, hr.zero] using Near.zero 0 hr.nonneg
  | succ k ih =>
    rw [dotSeq_succ, Finset.sum_range_succ, Finset.sum_range_succ]
    rcases Nat.eq_zero_or_pos k with rfl | hk
    · simpa [dotSeq_zero] using Near.mul hr (f i 0) (g 0 j)
    · exact Near.add hr ih ((Near.mul hr (f i k) (g k j)).mono hr.nonneg hk)

end BB
