import Mathlib.Data.Real.Basic
import Mathlib.Tactic.Positivity
import Mathlib.Tactic.Linarith
import Mathlib.Tactic.Ring
import Mathlib.Tactic.GCongr
import Mathlib.Tactic.NormNum
import Mathlib.Algebra.Order.Field.Basic
/-!
# Drag at low perigee

The density function of the theory starts at 78 km and falls with height.  `lowness p` says how low a perigee is: 1 at 400 km and above, and below that 322 km
divided by the height above the level of 78 km.
-/

namespace Sat.Spec

/-- for a perigee `p` earth radii from the centre -/
noncomputable def lowness (p : ℝ) : ℝ := max 1 (322 / 6378.137 / (p - (1 + 78 / 6378.137)))

theorem one_le_lowness (p : ℝ) : 1 ≤ lowness p := le_max_left _ _

theorem lowness_high {p : ℝ} (h : 1 + 400 / 6378.137 ≤ p) : lowness p = 1 := by
  refine max_eq_left ?_
  rw [div_le_one (by norm_num at *; linarith)]
  norm_num at *; linarith

theorem lowness_le {p : ℝ} (h : 1 + 240 / 6378.137 ≤ p) : lowness p ≤ 1.988 := by
  refine max_le (by norm_num) ?_
  rw [div_le_iff₀ (by norm_num at *; linarith)]
  norm_num at *; linarith

theorem lowness_mul {p : ℝ} (h : 1 + 240 / 6378.137 ≤ p) : 322 / 6378.137 ≤ lowness p * (p - (1 + 78 / 6378.137)) := by
  have h0 : 0 < p - (1 + 78 / 6378.137) := by norm_num at *; linarith
  rw [← div_le_iff₀ h0]
  exact le_max_right _ _

/-- a quantity that is small even when multiplied by a power of `L`, times one that is bounded by at most that power -/
theorem scaled_mul {x y a b L : ℝ} {k : ℕ} (hL : 1 ≤ L) (hx : |x| * L ^ 5 ≤ a) (hy : |y| ≤ b * L ^ k) (hk : k ≤ 5) (hb : 0 ≤ b) : |x * y| ≤ a * b := by
  rw [abs_mul]
  have h1 : L ^ k ≤ L ^ 5 := pow_le_pow_right₀ hL hk
  calc |x| * |y| ≤ |x| * (b * L ^ 5) := mul_le_mul_of_nonneg_left (hy.trans (mul_le_mul_of_nonneg_left h1 hb)) (abs_nonneg _)
    _ = |x| * L ^ 5 * b := by ring
    _ ≤ a * b := mul_le_mul_of_nonneg_right hx hb

/-- the same with one power of `L` left -/
theorem scaled_mul_spare {x y a b L : ℝ} (hL : 1 ≤ L) (hx : |x| * L ^ 5 ≤ a) (hy : |y| ≤ b * L ^ 4) (hb : 0 ≤ b) : |x * y| * L ≤ a * b := by
  have h0 : 0 ≤ L := by linarith
  rw [abs_mul]
  calc |x| * |y| * L ≤ |x| * (b * L ^ 4) * L := mul_le_mul_of_nonneg_right (mul_le_mul_of_nonneg_left hy (abs_nonneg _)) h0
    _ = |x| * L ^ 5 * b := by ring
    _ ≤ a * b := mul_le_mul_of_nonneg_right hx hb

/-- the factor may be left out -/
theorem scaled_le {x a L : ℝ} (hL : 1 ≤ L) (hx : |x| * L ^ 5 ≤ a) : |x| ≤ a :=
  (le_mul_of_one_le_right (abs_nonneg _) (one_le_pow₀ hL)).trans hx

end Sat.Spec
