import Verif.SpecTyped
import Verif.Lemmas.Float

/-! `float` and `double` as binary floating point numbers: what the theorems assume of them holds. -/

namespace BB

theorem rn_mono (md : Mode) {x y : ℚ} (h : x ≤ y) : md.rn x ≤ md.rn y := by
  rcases h.eq_or_lt with rfl | h
  · exact le_refl _
  · by_contra hc
    have hc : md.rn y + 1 ≤ md.rn x := by omega
    have hc' : (md.rn y : ℚ) + 1 ≤ md.rn x := by exact_mod_cast hc
    have h1 := abs_le.1 (md.near x)
    have h2 := abs_le.1 (md.near y)
    linarith [h1.1, h1.2, h2.1, h2.2]

/-- Rounding is monotone on the non-negative numbers. -/
theorem fl_mono {p : Nat} (hp : p ≠ 0) (md : Mode) {x y : ℚ} (hx : 0 ≤ x) (h : x ≤ y) : fl p md x ≤ fl p md y := by
  rcases hx.eq_or_lt with rfl | hx
  · rw [fl_zero]
    rcases h.eq_or_lt with rfl | hy
    · rw [fl_zero]
    · unfold fl
      rw [if_neg hy.ne']
      have : (0 : ℚ) ≤ md.rn (y / 2 ^ (Int.log 2 |y| - p + 1)) := by
        have h0 := rn_mono md (show ((0 : Int) : ℚ) ≤ y / 2 ^ (Int.log 2 |y| - p + 1) by push_cast; positivity)
        rw [near_int] at h0
        exact_mod_cast h0
      positivity
  · have hy : 0 < y := hx.trans_le h
    have lo : ∀ {z : ℚ}, 0 < z → (2 : ℚ) ^ Int.log 2 |z| ≤ z := by
      intro z hz
      have := Int.zpow_log_le_self (b := 2) (r := |z|) (by norm_num) (abs_pos.2 hz.ne')
      rw [abs_of_pos hz] at this ⊢
      exact_mod_cast this
    have hi : ∀ {z : ℚ}, 0 < z → z < (2 : ℚ) ^ (Int.log 2 |z| + 1) := by
      intro z hz
      have := Int.lt_zpow_succ_log_self (b := 2) (by norm_num) (|z|)
      rw [abs_of_pos hz] at this ⊢
      exact_mod_cast this
    unfold fl
    rw [if_neg hx.ne', if_neg hy.ne']
    have lx := lo hx
    have hx' := hi hx
    have ly := lo hy
    have hy' := hi hy
    generalize Int.log 2 |x| = e at *
    generalize Int.log 2 |y| = e' at *
    have hee : e ≤ e' := by
      have : (2 : ℚ) ^ e < 2 ^ (e' + 1) := lx.trans_lt (h.trans_lt hy')
      have := (zpow_lt_zpow_iff_right₀ (by norm_num : (1 : ℚ) < 2)).1 this
      omega
    rcases hee.eq_or_lt with rfl | hlt
    · have h2 : (0 : ℚ) < 2 ^ (e - (p : Int) + 1) := by positivity
      have := rn_mono md (div_le_div_of_nonneg_right h h2.le)
      have : (md.rn (x / 2 ^ (e - (p : Int) + 1)) : ℚ) ≤ md.rn (y / 2 ^ (e - (p : Int) + 1)) := by exact_mod_cast this
      exact mul_le_mul_of_nonneg_right this h2.le
    · obtain ⟨q, rfl⟩ : ∃ q : Nat, p = q + 1 := ⟨p - 1, by omega⟩
      have h2 : (0 : ℚ) < 2 ^ (e - ((q + 1 : Nat) : Int) + 1) := by positivity
      have h2' : (0 : ℚ) < 2 ^ (e' - ((q + 1 : Nat) : Int) + 1) := by positivity
      have a1 : x / 2 ^ (e - ((q + 1 : Nat) : Int) + 1) ≤ ((2 ^ (q + 1) : Int) : ℚ) := by
        rw [div_le_iff₀ h2]
        push_cast
        rw [← zpow_natCast, ← zpow_add₀ (by norm_num)]
        refine hx'.le.trans (le_of_eq ?_)
        congr 1; push_cast; ring
      have a2 : ((2 ^ q : Int) : ℚ) ≤ y / 2 ^ (e' - ((q + 1 : Nat) : Int) + 1) := by
        rw [le_div_iff₀ h2']
        push_cast
        rw [← zpow_natCast, ← zpow_add₀ (by norm_num)]
        refine (le_of_eq ?_).trans ly
        congr 1; push_cast; ring
      have b1 := rn_mono md a1
      have b2 := rn_mono md a2
      rw [near_int] at b1 b2
      have b1' : (md.rn (x / 2 ^ (e - ((q + 1 : Nat) : Int) + 1)) : ℚ) ≤ 2 ^ (q + 1) := by exact_mod_cast b1
      have b2' : (2 : ℚ) ^ q ≤ md.rn (y / 2 ^ (e' - ((q + 1 : Nat) : Int) + 1)) := by exact_mod_cast b2
      calc (md.rn (x / 2 ^ (e - ((q + 1 : Nat) : Int) + 1)) : ℚ) * 2 ^ (e - ((q + 1 : Nat) : Int) + 1)
          ≤ 2 ^ (q + 1) * 2 ^ (e - ((q + 1 : Nat) : Int) + 1) := mul_le_mul_of_nonneg_right b1' h2.le
        _ = 2 ^ (e + 1) := by rw [← zpow_natCast, ← zpow_add₀ (by norm_num)]; congr 1; push_cast; ring
        _ ≤ 2 ^ e' := zpow_le_zpow_right₀ (by norm_num) (by omega)
        _ = 2 ^ q * 2 ^ (e' - ((q + 1 : Nat) : Int) + 1) := by
          rw [← zpow_natCast, ← zpow_add₀ (by norm_num)]; congr 1; push_cast; ring
        _ ≤ _ := mul_le_mul_of_nonneg_right b2' h2'.le

theorem fl_one {p : Nat} (hp : p ≠ 0) (md : Mode) : fl p md 1 = 1 :=
  fl_id hp md ⟨1, 0, by rw [abs_one]; exact one_le_pow₀ (by norm_num), by simp⟩

/-- Rounding keeps positive numbers positive. -/
theorem fl_pos {p : Nat} (hp : p ≠ 0) (md : Mode) {x : ℚ} (h : 0 < x) : 0 < fl p md x := by
  have h1 := abs_le.1 (fl_err p md x)
  rw [abs_of_pos h] at h1
  have h2 : (2 : ℚ) ^ (-(p : Int)) ≤ 2 ^ (-1 : Int) := zpow_le_zpow_right₀ (by norm_num) (by omega)
  have h3 : (2 : ℚ) ^ (-1 : Int) = 1 / 2 := by norm_num
  rw [h3] at h2
  have := mul_le_mul_of_nonneg_right h2 h.le
  linarith [h1.1]

theorem HasBits.mono {p q : Nat} (h : p ≤ q) {x : ℚ} (hx : HasBits p x) : HasBits q x := by
  obtain ⟨m, s, h1, h2⟩ := hx
  exact ⟨m, s, h1.trans (pow_le_pow_right₀ (by norm_num) h), h2⟩

theorem HasBits.neg {p : Nat} {x : ℚ} (hx : HasBits p x) : HasBits p (-x) := by
  obtain ⟨m, s, h1, h2⟩ := hx
  exact ⟨-m, s, by rwa [abs_neg], by rw [h2]; push_cast; ring⟩

namespace Fp

variable {p q : Nat} {md : Mode}

instance : Neg (Fp p md) := ⟨fun x => ⟨-x.val, x.rep.neg⟩⟩
/-- A count converted to a floating point number. -/
instance : NatCast (Fp p md) := ⟨fun n => of n⟩
instance : Div (Fp p md) := ⟨fun x y => of (x.val / y.val)⟩
instance : LinearOrder (Fp p md) := LinearOrder.lift' Fp.val (fun _ _ h => ext h)

/-- Conversion to a format with a longer significand: exact. -/
def widen (h : p ≤ q) (x : Fp p md) : Fp q md := ⟨x.val, x.rep.mono h⟩

/-- Conversion to another format: rounded. -/
def narrow (x : Fp q md) : Fp p md := of x.val

/-- `float` and `double` numbers have all the properties assumed of them. -/
theorem numbers [NeZero p] [NeZero q] (h : p ≤ q) :
    Numbers (Fp.val (p := p) (md := md)) (Fp.val (p := q) (md := md)) (widen h) narrow ((2 : ℚ) ^ (-(p : Int))) ((2 : ℚ) ^ (-(q : Int))) where
  single := rounding
  double := rounding
  finer := zpow_le_zpow_right₀ (by norm_num) (by omega)
  up_val _ := rfl
  up_zero := rfl
  rnd_val x := fl_err p md x.val
  rnd_zero := ext (fl_zero p md)
  le_iff _ _ := Iff.rfl
  neg_val _ := rfl
  ratio_pos n m hn hm := by
    have h1 : 0 < fl q md (n : ℚ) := fl_pos (NeZero.ne q) md (by exact_mod_cast hn)
    have h2 : 0 < fl q md (m : ℚ) := fl_pos (NeZero.ne q) md (by exact_mod_cast hm)
    exact fl_pos (NeZero.ne q) md (div_pos h1 h2)
  ratio_le n m hnm hm := by
    have h1 : fl q md (n : ℚ) ≤ fl q md (m : ℚ) := fl_mono (NeZero.ne q) md (by positivity) (by exact_mod_cast hnm)
    have h2 : 0 < fl q md (m : ℚ) := fl_pos (NeZero.ne q) md (by exact_mod_cast hm)
    have h0 : 0 ≤ fl q md (n : ℚ) := by
      have := fl_mono (p := q) (NeZero.ne q) md (le_refl (0 : ℚ)) (show (0 : ℚ) ≤ n by positivity)
      rwa [fl_zero] at this
    show fl q md (fl q md n / fl q md m) ≤ 1
    have := fl_mono (p := q) (NeZero.ne q) md (div_nonneg h0 h2.le) ((div_le_one h2).2 h1)
    rwa [fl_one (NeZero.ne q)] at this

end Fp
end BB
