import Verif.Model.Constants
import Mathlib.Analysis.SpecialFunctions.Complex.Arg
import Mathlib.Analysis.SpecialFunctions.Trigonometric.Inverse
import Mathlib.Analysis.SpecialFunctions.Pow.Real
import Mathlib.Tactic.LinearCombination
import Mathlib.Tactic.Linarith
import Mathlib.Tactic.NormNum
import Mathlib.Tactic.Ring
import Mathlib.Tactic.FieldSimp
/-!
# Exact real arithmetic

The interpretation of `Arith` by Mathlib's real numbers.  Nothing is rounded.
-/

namespace Sat

/-- integer part, rounding towards zero -/
noncomputable def truncR (x : ℝ) : ℤ := if 0 ≤ x then ⌊x⌋ else ⌈x⌉

/-- exact `fmod`: `x - y * trunc (x / y)` -/
noncomputable def remR (x y : ℝ) : ℝ := x - y * truncR (x / y)

/-- exact `atan2` -/
noncomputable def atan2R (y x : ℝ) : ℝ := Complex.arg ⟨x, y⟩

/-- value of a decimal text; `nan` and `inf`, which are not real numbers, are mapped to 0 (no theorem over the reals is about
such texts) -/
noncomputable def decR : Dec → ℝ
  | .nan => 0
  | .inf _ => 0
  | .num neg m e => (if neg then -1 else 1) * (m : ℝ) * (10 : ℝ) ^ e

/-- exact `as u64`: truncation, saturating at both ends -/
noncomputable def toU64R (x : ℝ) : ℕ := min ⌊x⌋₊ (2 ^ 64 - 1)

noncomputable instance instArithReal : Arith ℝ where
  toAdd := Real.instAdd
  toSub := Real.instSub
  toMul := Real.instMul
  toDiv := inferInstance
  toNeg := Real.instNeg
  rem := remR
  abs x := |x|
  sqrt := Real.sqrt
  floor x := (⌊x⌋ : ℝ)
  sin := Real.sin
  cos := Real.cos
  asin := Real.arcsin
  atan2 := atan2R
  powf x y := x ^ y
  flt x y := decide (x < y)
  fle x y := decide (x ≤ y)
  feq x y := decide (x = y)
  sci m s e := OfScientific.ofScientific m s e
  pi := Real.pi
  fracPi2 := Real.pi / 2
  ofInt n := (n : ℝ)
  toU64 := toU64R
  ofDec := decR

@[simp] theorem real_rem (x y : ℝ) : Arith.rem x y = remR x y := rfl
@[simp] theorem real_abs (x : ℝ) : Arith.abs x = |x| := rfl
@[simp] theorem real_sqrt (x : ℝ) : Arith.sqrt x = Real.sqrt x := rfl
@[simp] theorem real_floor (x : ℝ) : Arith.floor x = (⌊x⌋ : ℝ) := rfl
@[simp] theorem real_sin (x : ℝ) : Arith.sin x = Real.sin x := rfl
@[simp] theorem real_cos (x : ℝ) : Arith.cos x = Real.cos x := rfl
@[simp] theorem real_asin (x : ℝ) : Arith.asin x = Real.arcsin x := rfl
@[simp] theorem real_atan2 (y x : ℝ) : Arith.atan2 y x = atan2R y x := rfl
@[simp] theorem real_powf (x y : ℝ) : Arith.powf x y = x ^ y := rfl
@[simp] theorem real_flt (x y : ℝ) : Arith.flt x y = decide (x < y) := rfl
@[simp] theorem real_fle (x y : ℝ) : Arith.fle x y = decide (x ≤ y) := rfl
@[simp] theorem real_feq (x y : ℝ) : Arith.feq x y = decide (x = y) := rfl
@[simp] theorem real_pi : (Arith.pi : ℝ) = Real.pi := rfl
@[simp] theorem real_fracPi2 : (Arith.fracPi2 : ℝ) = Real.pi / 2 := rfl
@[simp] theorem real_ofInt (n : ℤ) : (Arith.ofInt n : ℝ) = (n : ℝ) := rfl
@[simp] theorem real_toU64 (x : ℝ) : Arith.toU64 x = toU64R x := rfl
@[simp] theorem real_powi2 (x : ℝ) : powi2 x = x ^ 2 := by rw [powi2]; ring
@[simp] theorem real_powi4 (x : ℝ) : powi4 x = x ^ 4 := by rw [powi4]; ring
@[simp] theorem real_rpow_two (x : ℝ) : x ^ (2.0 : ℝ) = x ^ 2 := by
  rw [show (2.0 : ℝ) = ((2 : ℕ) : ℝ) by norm_num, Real.rpow_natCast]
@[simp] theorem real_TWO_PI : (TWO_PI : ℝ) = 2 * Real.pi := by simp only [TWO_PI, real_pi]; norm_num; ring

/-- `fmod` only removes whole multiples of the modulus -/
theorem remR_congr (x y : ℝ) : ∃ k : ℤ, remR x y = x - k * y := ⟨truncR (x / y), by rw [remR]; ring⟩

/-- `fmod` by a positive number stays strictly between `-y` and `y` -/
theorem remR_lt {y : ℝ} (hy : 0 < y) (x : ℝ) : |remR x y| < y := by
  rw [remR, truncR, abs_lt]
  have hx : x = y * (x / y) := by field_simp
  split
  · have h1 := Int.floor_le (x / y)
    have h2 := Int.lt_floor_add_one (x / y)
    constructor <;> nlinarith
  · have h1 := Int.le_ceil (x / y)
    have h2 := Int.ceil_lt_add_one (x / y)
    constructor <;> nlinarith

/-- `fmod` keeps the sign of its first argument -/
theorem remR_nonneg {y : ℝ} (hy : 0 < y) {x : ℝ} (hx0 : 0 ≤ x) : 0 ≤ remR x y := by
  rw [remR, truncR, if_pos (by positivity)]
  have hx : x = y * (x / y) := by field_simp
  have h1 := Int.floor_le (x / y)
  nlinarith

theorem remR_nonpos {y : ℝ} (hy : 0 < y) {x : ℝ} (hx0 : x ≤ 0) : remR x y ≤ 0 := by
  rcases eq_or_lt_of_le hx0 with h | h
  · subst h; simp [remR, truncR]
  have hq : x / y < 0 := div_neg_of_neg_of_pos h hy
  rw [remR, truncR, if_neg (not_le.mpr hq)]
  have hx : x = y * (x / y) := by field_simp
  have h1 := Int.le_ceil (x / y)
  nlinarith

/-- `fmod` does nothing to a number already smaller than the modulus -/
theorem remR_small {y : ℝ} (hy : 0 < y) {x : ℝ} (hx : |x| < y) : remR x y = x := by
  rw [abs_lt] at hx
  have hxe : x = y * (x / y) := by field_simp
  have h1 : x / y < 1 := by rw [div_lt_one hy]; exact hx.2
  have h2 : -1 < x / y := by rw [lt_div_iff₀ hy]; linarith
  have : truncR (x / y) = 0 := by
    rw [truncR]
    split
    · rw [Int.floor_eq_zero_iff]; exact ⟨by assumption, h1⟩
    · rw [Int.ceil_eq_zero_iff]; exact ⟨h2, by linarith⟩
  rw [remR, this]; simp

theorem sin_remR (x : ℝ) : Real.sin (remR x (2 * Real.pi)) = Real.sin x := by
  obtain ⟨k, h⟩ := remR_congr x (2 * Real.pi)
  rw [h, Real.sin_sub_int_mul_two_pi]

theorem cos_remR (x : ℝ) : Real.cos (remR x (2 * Real.pi)) = Real.cos x := by
  obtain ⟨k, h⟩ := remR_congr x (2 * Real.pi)
  rw [h, Real.cos_sub_int_mul_two_pi]

/-- polar coordinates: `atan2` recovers the direction -/
theorem atan2R_cos (y x : ℝ) : Real.sqrt (x ^ 2 + y ^ 2) * Real.cos (atan2R y x) = x := by
  have := Complex.norm_mul_cos_arg (⟨x, y⟩ : ℂ)
  rw [Complex.norm_def, Complex.normSq_mk] at this
  rw [atan2R]; simpa [sq] using this

theorem atan2R_sin (y x : ℝ) : Real.sqrt (x ^ 2 + y ^ 2) * Real.sin (atan2R y x) = y := by
  have := Complex.norm_mul_sin_arg (⟨x, y⟩ : ℂ)
  rw [Complex.norm_def, Complex.normSq_mk] at this
  rw [atan2R]; simpa [sq] using this

theorem atan2R_mem (y x : ℝ) : atan2R y x ∈ Set.Ioc (-Real.pi) Real.pi := Complex.arg_mem_Ioc _

theorem atan2R_polar {r : ℝ} (hr : 0 < r) {θ : ℝ} (h : θ ∈ Set.Ioc (-Real.pi) Real.pi) :
    atan2R (r * Real.sin θ) (r * Real.cos θ) = θ := by
  have := Complex.arg_mul_cos_add_sin_mul_I hr h
  rw [atan2R]
  convert this using 2
  apply Complex.ext <;> simp [Complex.cos_ofReal_re, Complex.sin_ofReal_re]

end Sat
