import Verif.SpecIeee
import Verif.Lemmas.Float
import Mathlib.Tactic.Cases

/-! Basic facts about numbers with infinities and NaN, and the binary floating point formats as an instance. -/

namespace BB.Ieee

variable {F : Type} [FinArith F]

theorem zero_def : (0 : Ieee F) = .fin 0 := rfl
theorem fin_add (x y : F) : (.fin x + .fin y : Ieee F) = FinArith.add x y := rfl
theorem fin_mul (x y : F) : (.fin x * .fin y : Ieee F) = FinArith.mul x y := rfl
@[simp] theorem nan_add (x : Ieee F) : .nan + x = (.nan : Ieee F) := by cases x <;> rfl
@[simp] theorem add_nan (x : Ieee F) : x + .nan = (.nan : Ieee F) := by cases x <;> rfl
@[simp] theorem nan_mul (x : Ieee F) : .nan * x = (.nan : Ieee F) := by cases x <;> rfl
@[simp] theorem mul_nan (x : Ieee F) : x * .nan = (.nan : Ieee F) := by cases x <;> rfl
theorem sub_def (x y : Ieee F) : x - y = x + -y := rfl
@[simp] theorem neg_nan : -(.nan : Ieee F) = .nan := rfl
@[simp] theorem abs_nan : absv (.nan : Ieee F) = .nan := rfl
@[simp] theorem sqrt_nan (root : F → F) : sqrt root (.nan : Ieee F) = .nan := rfl
@[simp] theorem nan_sub (x : Ieee F) : .nan - x = (.nan : Ieee F) := by rw [sub_def, nan_add]
@[simp] theorem sub_nan (x : Ieee F) : x - .nan = (.nan : Ieee F) := by rw [sub_def, neg_nan, add_nan]

theorem lt_def (x y : Ieee F) : x < y ↔ ltb x y = true := Iff.rfl
theorem le_def (x y : Ieee F) : x ≤ y ↔ leb x y = true := Iff.rfl
@[simp] theorem not_nan_lt (x : Ieee F) : ¬ (.nan < x) := by cases x <;> simp [lt_def, ltb]
@[simp] theorem not_lt_nan (x : Ieee F) : ¬ (x < .nan) := by cases x <;> simp [lt_def, ltb]
@[simp] theorem not_nan_le (x : Ieee F) : ¬ (.nan ≤ x) := by cases x <;> simp [le_def, leb]
@[simp] theorem not_le_nan (x : Ieee F) : ¬ (x ≤ .nan) := by cases x <;> simp [le_def, leb]
@[simp] theorem fin_lt (x y : F) : (.fin x : Ieee F) < .fin y ↔ x < y := by simp [lt_def, ltb]
@[simp] theorem fin_le (x y : F) : (.fin x : Ieee F) ≤ .fin y ↔ x ≤ y := by simp [le_def, leb]
@[simp] theorem fin_lt_inf (x : F) : (.fin x : Ieee F) < .inf false := rfl
@[simp] theorem fin_le_inf (x : F) : (.fin x : Ieee F) ≤ .inf false := rfl
@[simp] theorem not_inf_lt (x : Ieee F) : ¬ (.inf false : Ieee F) < x := by cases x <;> simp [lt_def, ltb]

instance : AddZeroClass (Ieee F) where
  zero_add x := by
    cases x with
    | fin x => exact FinArith.zero_add x
    | inf a => rfl
    | nan => rfl
  add_zero x := by
    cases x with
    | fin x => exact FinArith.add_zero x
    | inf a => rfl
    | nan => rfl

theorem comm (x y : Ieee F) : x + y = y + x := by
  cases x with
  | fin x => cases y with
    | fin y => exact FinArith.add_comm x y
    | inf b => rfl
    | nan => rfl
  | inf a => cases y with
    | fin y => rfl
    | inf b => cases a <;> cases b <;> rfl
    | nan => rfl
  | nan => cases y <;> rfl

/-- Finite numbers multiplied with 0 give 0, whatever rounding does. -/
theorem finite_mul_zero {x : Ieee F} (h : x.Finite) : x * 0 = 0 := by
  cases x with
  | fin x => exact FinArith.mul_zero x
  | inf a => cases h
  | nan => cases h

theorem finite_zero_mul {x : Ieee F} (h : x.Finite) : 0 * x = 0 := by
  cases x with
  | fin x => exact FinArith.zero_mul x
  | inf a => cases h
  | nan => cases h

/-- Infinities and NaN multiplied with 0 give NaN. -/
theorem notFinite_mul_zero {x : Ieee F} (h : ¬ x.Finite) : x * 0 = .nan := by
  cases x with
  | fin x => exact absurd trivial h
  | inf a => show (if (0 : F) = 0 then _ else _) = _; rw [if_pos rfl]
  | nan => rfl

theorem notFinite_zero_mul {x : Ieee F} (h : ¬ x.Finite) : 0 * x = .nan := by
  cases x with
  | fin x => exact absurd trivial h
  | inf a => show (if (0 : F) = 0 then _ else _) = _; rw [if_pos rfl]
  | nan => rfl

theorem neg_zero : -(0 : Ieee F) = 0 := congrArg Ieee.fin FinArith.neg_zero

theorem sub_zero (x : Ieee F) : x - 0 = x := by rw [sub_def, neg_zero, add_zero]

/-- |x| is NaN, +∞ or a number that is not negative. -/
theorem abs_cases (x : Ieee F) : absv x = .nan ∨ absv x = .inf false ∨ ∃ z, 0 ≤ z ∧ absv x = .fin z := by
  cases x with
  | fin x =>
    refine .inr (.inr ⟨_, ?_, rfl⟩)
    rcases le_total 0 x with h | h
    · exact le_max_of_le_left h
    · exact le_max_of_le_right ((FinArith.neg_nonneg x).2 h)
  | inf a => exact .inr (.inl rfl)
  | nan => exact .inl rfl

theorem abs_eq_nan {x : Ieee F} : absv x = .nan ↔ x = .nan := by cases x <;> simp [absv]

/-- The difference of two numbers is finite or overflows only if both are finite. -/
theorem abs_sub_finite {x y : Ieee F} {z : F} (h : absv (x - y) = .fin z) : x.Finite ∧ y.Finite := by
  cases x with
  | fin x => cases y with
    | fin y => exact ⟨trivial, trivial⟩
    | inf b => cases b <;> cases h
    | nan => cases h
  | inf a => cases y with
    | fin y => cases a <;> cases h
    | inf b => cases a <;> cases b <;> cases h
    | nan => cases h
  | nan => cases y <;> cases h

end BB.Ieee

namespace BB

theorem fl_nonneg {p : Nat} (md : Mode) {x : ℚ} (h : 0 ≤ x) : 0 ≤ fl p md x := by
  have h1 := fl_err p md x
  rw [abs_of_nonneg h] at h1
  have h2 : (2 : ℚ) ^ (-(p : Int)) ≤ 1 := by
    rw [zpow_neg, zpow_natCast]
    exact inv_le_one_of_one_le₀ (one_le_pow₀ (by norm_num))
  have h3 := (abs_le.1 h1).1
  have h4 : (2 : ℚ) ^ (-(p : Int)) * x ≤ 1 * x := by gcongr
  linarith

theorem fl_pos {p : Nat} (hp : p ≠ 0) (md : Mode) {x : ℚ} (h : 0 < x) : 0 < fl p md x := by
  have h1 := fl_err p md x
  rw [abs_of_pos h] at h1
  have h2 : (2 : ℚ) ^ (-(p : Int)) ≤ 1 / 2 := by
    rw [zpow_neg, zpow_natCast, one_div]
    have : (2 : ℚ) ^ 1 ≤ 2 ^ p := pow_le_pow_right₀ (by norm_num) (Nat.one_le_iff_ne_zero.2 hp)
    gcongr
    simpa using this
  have h3 := (abs_le.1 h1).1
  have h4 : (2 : ℚ) ^ (-(p : Int)) * x ≤ 1 / 2 * x := by gcongr
  linarith

namespace FpB

variable {p : Nat} {md : Mode} {M : ℚ}

@[ext] theorem ext {a b : FpB p md M} (h : a.val = b.val) : a = b := by
  cases a; cases b; cases h; rfl

/-- `x` rounded; an infinity if the result is too large. -/
def round (x : ℚ) : Ieee (FpB p md M) :=
  if h : |fl p md x| ≤ M then .fin ⟨fl p md x, fl_rep p md x, h⟩ else .inf (decide (fl p md x < 0))

theorem round_ne_nan (x : ℚ) : (round x : Ieee (FpB p md M)) ≠ .nan := by unfold round; split <;> simp

theorem round_val [NeZero p] (a : FpB p md M) : (round a.val : Ieee (FpB p md M)) = .fin a := by
  unfold round
  have h := fl_id (NeZero.ne p) md a.rep
  rw [dif_pos (by rw [h]; exact a.bound)]
  exact congrArg Ieee.fin (ext h)

theorem round_nonneg {x : ℚ} (hx : 0 ≤ x) :
    (round x : Ieee (FpB p md M)) = .inf false ∨ ∃ z : FpB p md M, 0 ≤ z.val ∧ (round x : Ieee (FpB p md M)) = .fin z := by
  unfold round
  have h := fl_nonneg (p := p) md hx
  split
  · exact .inr ⟨_, h, rfl⟩
  · left; rw [decide_eq_false (not_lt.2 h)]

/-- The zero. -/
def zero (hM : 0 ≤ M) : FpB p md M := ⟨0, ⟨0, 0, by positivity, by simp⟩, by simpa using hM⟩

/-- Binary floating point numbers that overflow satisfy what is assumed of the finite numbers. -/
instance instFinArith [NeZero p] [hM : Fact (0 ≤ M)] : FinArith (FpB p md M) where
  toLinearOrder := LinearOrder.lift' FpB.val (fun _ _ h => ext h)
  zero := zero hM.out
  neg a := ⟨-a.val, by obtain ⟨m, s, h, e⟩ := a.rep; exact ⟨-m, s, by simpa using h, by rw [e]; push_cast; ring⟩, by simpa using a.bound⟩
  add a b := round (a.val + b.val)
  mul a b := round (a.val * b.val)
  div a b := round (a.val / b.val)
  ofNat n := round n
  add_zero a := by show round (a.val + 0) = _; rw [_root_.add_zero]; exact round_val a
  zero_add a := by show round (0 + a.val) = _; rw [_root_.zero_add]; exact round_val a
  add_comm a b := by rw [_root_.add_comm]
  add_ne_nan _ _ := round_ne_nan _
  add_neg a := by show round (a.val + -a.val) = _; rw [add_neg_cancel]; exact round_val (zero hM.out)
  add_nonneg a b ha hb := round_nonneg (_root_.add_nonneg ha hb)
  mul_zero a := by show round (a.val * 0) = _; rw [MulZeroClass.mul_zero]; exact round_val (zero hM.out)
  zero_mul a := by show round (0 * a.val) = _; rw [MulZeroClass.zero_mul]; exact round_val (zero hM.out)
  mul_ne_nan _ _ := round_ne_nan _
  mul_self_nonneg a := round_nonneg (_root_.mul_self_nonneg a.val)
  neg_zero := ext (_root_.neg_zero (G := ℚ))
  neg_nonneg a := _root_.neg_nonneg (a := a.val)
  zero_div a _ := by show round (0 / a.val) = _; rw [_root_.zero_div]; exact round_val (zero hM.out)
  ofNat_zero := by show round ((0 : Nat) : ℚ) = _; rw [Nat.cast_zero]; exact round_val (zero hM.out)
  ofNat_pos n hn := by
    have h := fl_pos (NeZero.ne p) md (x := (n : ℚ)) (by exact_mod_cast Nat.pos_of_ne_zero hn)
    show round (n : ℚ) = _ ∨ ∃ x : FpB p md M, (0 : ℚ) < x.val ∧ round (n : ℚ) = _
    unfold round
    split
    · exact .inr ⟨_, h, rfl⟩
    · left; rw [decide_eq_false (not_lt.2 h.le)]

end FpB
end BB
