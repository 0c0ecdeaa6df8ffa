import Verif.F64.Approx
import Mathlib.Analysis.SpecialFunctions.Trigonometric.Bounds
import Mathlib.Analysis.SpecialFunctions.Log.Basic
/-!
# Rounding errors of powers, of `atan2` and of a few combinations of operations
-/

namespace Sat
open F64
namespace F64

/-! ## Powers -/

theorem log_sub_le {x a m δ : ℝ} (h : |x - a| ≤ δ) (ha : m ≤ a) (hδ : δ < m) : |Real.log x - Real.log a| ≤ δ / (m - δ) := by
  have h0 := (abs_nonneg _).trans h
  obtain ⟨h1, h2⟩ := abs_le.mp h
  have ha0 : 0 < a := by linarith
  have hx0 : 0 < x := by linarith
  have hm : 0 < m - δ := by linarith
  rw [← Real.log_div hx0.ne' ha0.ne', abs_le]
  have u : Real.log (x / a) ≤ x / a - 1 := Real.log_le_sub_one_of_pos (by positivity)
  have l : Real.log (a / x) ≤ a / x - 1 := Real.log_le_sub_one_of_pos (by positivity)
  rw [← neg_neg (Real.log (a / x)), ← Real.log_inv, inv_div] at l
  constructor
  · have : a / x - 1 ≤ δ / (m - δ) := by
      rw [div_sub_one hx0.ne']
      exact div_le_div₀ h0 (by linarith) hm (by linarith)
    linarith
  · have : x / a - 1 ≤ δ / (m - δ) := by
      rw [div_sub_one ha0.ne']
      exact div_le_div₀ h0 (by linarith) hm (by linarith)
    linarith

theorem rpow_sub_le {x a y c m δ ε L Z : ℝ} (h : |x - a| ≤ δ) (ha : m ≤ a) (hδ : δ < m) (hy : |y - c| ≤ ε)
    (hL : |Real.log x| ≤ L) (hZ : ε * L + |c| * (δ / (m - δ)) ≤ Z) (hZ1 : Z ≤ 1) : |x ^ y - a ^ c| ≤ a ^ c * (2 * Z) := by
  obtain ⟨h1, h2⟩ := abs_le.mp h
  have h0 := (abs_nonneg _).trans h
  have ha0 : 0 < a := by linarith
  have hx0 : 0 < x := by linarith
  have hl := log_sub_le h ha hδ
  set z := Real.log x * y - Real.log a * c with hz
  have e : x ^ y = a ^ c * Real.exp z := by
    rw [Real.rpow_def_of_pos hx0, Real.rpow_def_of_pos ha0, ← Real.exp_add, hz]; congr 1; ring
  have hzb : |z| ≤ Z := by
    have e2 : z = (y - c) * Real.log x + c * (Real.log x - Real.log a) := by rw [hz]; ring
    rw [e2]
    refine ((abs_add_le _ _).trans (add_le_add ?_ ?_)).trans hZ <;> rw [abs_mul]
    · exact mul_le_mul hy hL (abs_nonneg _) ((abs_nonneg _).trans hy)
    · exact mul_le_mul_of_nonneg_left hl (abs_nonneg _)
  have hp : 0 < a ^ c := Real.rpow_pos_of_pos ha0 c
  rw [e, ← mul_sub_one, abs_mul, abs_of_pos hp]
  refine mul_le_mul_of_nonneg_left ?_ hp.le
  exact (Real.abs_exp_sub_one_le (hzb.trans hZ1)).trans (by linarith)

/-- bounds of the logarithm by powers of two -/
theorem log_bound {x : ℝ} (n : ℕ) (h1 : 1 / 2 ^ n ≤ x) (h2 : x ≤ 2 ^ n) : |Real.log x| ≤ n := by
  have hx : 0 < x := lt_of_lt_of_le (by positivity) h1
  have l2 : Real.log 2 ≤ 1 := by have := Real.log_le_sub_one_of_pos (show (0 : ℝ) < 2 by norm_num); linarith
  have l2' : 0 ≤ Real.log 2 := Real.log_nonneg (by norm_num)
  have u := Real.log_le_log hx h2
  have l := Real.log_le_log (by positivity) h1
  rw [Real.log_pow] at u
  rw [one_div, Real.log_inv, Real.log_pow] at l
  have hn : (n : ℝ) * Real.log 2 ≤ n := by nlinarith [Nat.cast_nonneg (α := ℝ) n]
  rw [abs_le]; constructor <;> linarith

variable {x y : F64} {a b A B δ ε : ℝ}
section
variable [Libm]

/-- `powf`, base between `m` and `A`, both within `[2^-n, 2^n]` with room for the error -/
theorem Q.powf (hL : Libm.Faithful) (hx : Q x a A δ) (hy : Q y b B ε) (n : ℕ) (m C Z lo : ℝ) (ha : m ≤ a) (hC : a ^ b ≤ C) (hlo : lo ≤ a ^ b)
    (hδ : δ < m) (hn1 : 1 / 2 ^ n ≤ m - δ) (hn2 : A + δ ≤ 2 ^ n)
    (hZ : ε * n + B * (δ / (m - δ)) ≤ Z) (hZ1 : Z ≤ 1 / 4) (hlo0 : 1 / 2 ^ 100 ≤ lo) (hC0 : C ≤ 2 ^ 100) :
    Q (Arith.powf x y) (a ^ b) C (C * (2 * Z) + C * (1 + 2 * Z) / 2 ^ 48) := by
  show Q (Libm.powf x y) _ _ _
  obtain ⟨e1, e2⟩ := abs_le.mp hx.err
  have hxm : m - δ ≤ x.val := by linarith
  have hxM : x.val ≤ A + δ := (le_abs_self _).trans hx.val_le
  have hx0 : 0 < x.val := lt_of_lt_of_le (by positivity) (hn1.trans hxm)
  have hlog := log_bound n (hn1.trans hxm) (hxM.trans hn2)
  have hδ0 := hx.nonneg_err
  have hε0 := hy.nonneg_err
  have hB0 := hy.nonneg_mag
  have hr := rpow_sub_le (Z := Z) hx.err ha hδ hy.err hlog (le_trans (add_le_add le_rfl (mul_le_mul_of_nonneg_right hy.mag
    (div_nonneg hδ0 (by linarith)))) hZ) (by linarith)
  have hZ0 : 0 ≤ Z := le_trans (by have : 0 ≤ δ / (m - δ) := div_nonneg hδ0 (by linarith)
                                   positivity) hZ
  have hab : 0 < a ^ b := lt_of_lt_of_le (by positivity) (hlo0.trans hlo)
  have hb : |x.val ^ y.val - a ^ b| ≤ C * (2 * Z) := hr.trans (mul_le_mul_of_nonneg_right hC (by positivity))
  obtain ⟨r1, r2⟩ := abs_le.mp hr
  have hC1 : 0 ≤ C := hab.le.trans hC
  have p1 : 1 / 2 ^ 900 ≤ x.val ^ y.val := by
    have : a ^ b / 2 ≤ x.val ^ y.val := by nlinarith
    refine le_trans ?_ this
    have h3 : (1 : ℝ) / 2 ^ 101 ≤ a ^ b / 2 := by
      have := hlo0.trans hlo
      rw [pow_succ, ← div_div]; linarith
    refine le_trans ?_ h3
    exact one_div_le_one_div_of_le (by positivity) (pow_le_pow_right₀ (by norm_num) (by norm_num))
  have p2 : x.val ^ y.val ≤ C * (1 + 2 * Z) := by
    have := (abs_le.mp hb).2
    linarith
  have p3 : x.val ^ y.val ≤ 2 ^ 900 := by
    refine p2.trans ?_
    have h4 : C * (1 + 2 * Z) ≤ 2 ^ 100 * 2 := mul_le_mul hC0 (by linarith) (by linarith) (by positivity)
    refine h4.trans ?_
    rw [← pow_succ]
    exact pow_le_pow_right₀ (by norm_num) (by norm_num)
  obtain ⟨f1, f2⟩ := hL.powf_pos x y hx.fin hy.fin hx0 p1 p3
  refine ⟨f1, ?_, by rw [abs_of_pos hab]; exact hC⟩
  have e : (Libm.powf x y).val - a ^ b = ((Libm.powf x y).val - x.val ^ y.val) + (x.val ^ y.val - a ^ b) := by ring
  rw [e]
  refine (abs_add_le _ _).trans ?_
  have h5 : x.val ^ y.val / 2 ^ 48 ≤ C * (1 + 2 * Z) / 2 ^ 48 := div_le_div_of_nonneg_right p2 (by positivity)
  linarith

/-! ## `atan2` of a unit vector -/

omit [Libm] in
/-- an angle with small sine and positive cosine is close to a whole number of turns -/
theorem near_turn {ψ : ℝ} (hc : 0 < Real.cos ψ) {η : ℝ} (hs : |Real.sin ψ| ≤ η) : ∃ k : ℤ, |ψ - k * (2 * Real.pi)| ≤ 1.6 * η := by
  have hpi := Real.pi_pos
  refine ⟨toIocDiv (by positivity : 0 < 2 * Real.pi) (-Real.pi) ψ, ?_⟩
  set φ := ψ - toIocDiv (by positivity : 0 < 2 * Real.pi) (-Real.pi) ψ * (2 * Real.pi) with hφ
  have hm := toIocMod_mem_Ioc (by positivity : 0 < 2 * Real.pi) (-Real.pi) ψ
  have e : toIocMod (by positivity : 0 < 2 * Real.pi) (-Real.pi) ψ = φ := by
    rw [hφ, toIocMod, zsmul_eq_mul]
  rw [e] at hm
  have hc' : 0 < Real.cos φ := by rw [hφ, Real.cos_sub_int_mul_two_pi]; exact hc
  have hs' : |Real.sin φ| ≤ η := by rw [hφ, Real.sin_sub_int_mul_two_pi]; exact hs
  have hr : |φ| < Real.pi / 2 := by
    by_contra hcon
    have hle : Real.pi / 2 ≤ |φ| := not_lt.mp hcon
    have : Real.cos |φ| ≤ 0 := Real.cos_nonpos_of_pi_div_two_le_of_le hle (by
      have : |φ| ≤ Real.pi := abs_le.mpr ⟨by linarith [hm.1], by linarith [hm.2]⟩
      linarith)
    rw [Real.cos_abs] at this; linarith
  have h2 := Real.mul_le_sin (abs_nonneg φ) hr.le
  have h3 : Real.sin |φ| ≤ η := by
    rcases abs_cases φ with ⟨h, -⟩ | ⟨h, -⟩ <;> rw [h]
    · exact (le_abs_self _).trans hs'
    · rw [Real.sin_neg]; exact (neg_le_abs _).trans hs'
  have h4 : 2 / Real.pi * |φ| ≤ η := h2.trans h3
  rw [div_mul_eq_mul_div, div_le_iff₀ hpi] at h4
  have hη : 0 ≤ η := (abs_nonneg _).trans hs'
  have := Real.pi_lt_d2
  nlinarith

omit [Libm] in
theorem atan2_polar (y x : ℝ) : ∃ ρ : ℝ, ρ = Real.sqrt (x ^ 2 + y ^ 2) ∧ x = ρ * Real.cos (atan2R y x) ∧ y = ρ * Real.sin (atan2R y x) := by
  refine ⟨_, rfl, ?_, ?_⟩
  · have h1 := Complex.norm_mul_cos_arg (⟨x, y⟩ : ℂ)
    have h2 : ‖(⟨x, y⟩ : ℂ)‖ = Real.sqrt (x ^ 2 + y ^ 2) := by
      rw [Complex.norm_def, Complex.normSq_mk]; congr 1; ring
    rw [h2] at h1; exact h1.symm
  · have h1 := Complex.norm_mul_sin_arg (⟨x, y⟩ : ℂ)
    have h2 : ‖(⟨x, y⟩ : ℂ)‖ = Real.sqrt (x ^ 2 + y ^ 2) := by
      rw [Complex.norm_def, Complex.normSq_mk]; congr 1; ring
    rw [h2] at h1; exact h1.symm

/-- `atan2`: the angle of a unit vector known to within `δ` and `ε` in each component -/
theorem Q.atan2 (hL : Libm.Faithful) (hy : Q y b B ε) (hx : Q x a A δ) (h1 : a ^ 2 + b ^ 2 = 1) (hs : δ + ε ≤ 1 / 10) :
    QA (Arith.atan2 y x) (atan2R b a) 3.2 (2 * (δ + ε) + 1 / 2 ^ 48) := by
  show QA (Libm.atan2 y x) _ _ _
  obtain ⟨f1, f2⟩ := hL.atan2_fin y x hy.fin hx.fin
  obtain ⟨ρ, hρ, px, py⟩ := atan2_polar y.val x.val
  obtain ⟨ρ', hρ', qx, qy⟩ := atan2_polar b a
  have hρ1 : ρ' = 1 := by rw [hρ', h1, Real.sqrt_one]
  rw [hρ1, one_mul] at qx qy
  have ha1 : |a| ≤ 1 := by rw [abs_le]; constructor <;> nlinarith
  have hb1 : |b| ≤ 1 := by rw [abs_le]; constructor <;> nlinarith
  have hδ := hx.nonneg_err
  have hε := hy.nonneg_err
  -- the vector is long enough
  have hdot : 9 / 10 ≤ x.val * a + y.val * b := by
    have e : x.val * a + y.val * b = 1 + ((x.val - a) * a + (y.val - b) * b) := by linear_combination h1
    have h2 : |(x.val - a) * a + (y.val - b) * b| ≤ δ + ε := by
      refine (abs_add_le _ _).trans (add_le_add ?_ ?_) <;> rw [abs_mul]
      · calc _ ≤ δ * 1 := mul_le_mul hx.err ha1 (abs_nonneg _) hδ
          _ = δ := mul_one _
      · calc _ ≤ ε * 1 := mul_le_mul hy.err hb1 (abs_nonneg _) hε
          _ = ε := mul_one _
    rw [e]; linarith [(abs_le.mp h2).1]
  have hρ0 : 0 ≤ ρ := hρ ▸ Real.sqrt_nonneg _
  have hρsq : ρ ^ 2 = x.val ^ 2 + y.val ^ 2 := by rw [hρ]; exact Real.sq_sqrt (by positivity)
  have hρ9 : 9 / 10 ≤ ρ := by
    have h2 : (x.val * a + y.val * b) ^ 2 ≤ ρ ^ 2 := by
      rw [hρsq]; nlinarith [sq_nonneg (x.val * b - y.val * a)]
    exact hdot.trans (abs_le_of_sq_le_sq' h2 hρ0).2
  set φ := atan2R y.val x.val with hφ
  set θ := atan2R b a with hθ
  have hsin : |Real.sin (φ - θ)| ≤ (δ + ε) / (9 / 10) := by
    have e : ρ * Real.sin (φ - θ) = (y.val - b) * a - (x.val - a) * b := by
      rw [Real.sin_sub]
      have : ρ * (Real.sin φ * Real.cos θ - Real.cos φ * Real.sin θ) = y.val * a - x.val * b := by
        rw [px, py, qx, qy]; ring
      rw [this]; ring
    have h2 : |(y.val - b) * a - (x.val - a) * b| ≤ δ + ε := by
      have h3 := abs_sub ((y.val - b) * a) ((x.val - a) * b)
      rw [abs_mul, abs_mul] at h3
      have h4 : |y.val - b| * |a| ≤ ε * 1 := mul_le_mul hy.err ha1 (abs_nonneg _) hε
      have h5 : |x.val - a| * |b| ≤ δ * 1 := mul_le_mul hx.err hb1 (abs_nonneg _) hδ
      linarith
    rw [← e, abs_mul, abs_of_nonneg hρ0] at h2
    rw [le_div_iff₀ (by norm_num)]
    nlinarith [abs_nonneg (Real.sin (φ - θ))]
  have hcos : 0 < Real.cos (φ - θ) := by
    have e : ρ * Real.cos (φ - θ) = x.val * a + y.val * b := by
      rw [Real.cos_sub]
      rw [px, py, qx, qy]; ring
    by_contra hc
    nlinarith [not_lt.mp hc]
  obtain ⟨k, hk⟩ := near_turn hcos hsin
  have hne : y.val ≠ 0 ∨ x.val ≠ 0 := by
    by_contra hc
    rw [not_or, not_not, not_not] at hc
    rw [hc.1, hc.2] at hdot; norm_num at hdot
  obtain ⟨j, hj⟩ := hL.atan2_acc y x hy.fin hx.fin hne
  refine ⟨f1, f2.trans (by rw [pi_val.2]; norm_num), k + j, ?_⟩
  have e : (Libm.atan2 y x).val - (θ + ((k + j : ℤ) : ℝ) * (2 * Real.pi)) =
      ((Libm.atan2 y x).val - (φ + j * (2 * Real.pi))) + (φ - θ - k * (2 * Real.pi)) := by push_cast; ring
  rw [e]
  refine (abs_add_le _ _).trans ?_
  have : 1.6 * ((δ + ε) / (9 / 10)) ≤ 2 * (δ + ε) := by
    rw [← mul_div_assoc, div_le_iff₀ (by norm_num)]
    norm_num
    linarith
  linarith

/-! ## Combinations -/

omit [Libm] in
/-- `max`, written with a comparison -/
theorem Q.floorAt (hx : Q x a A δ) (hy : Q y b A ε) :
    Q (if F64.flt x y then y else x) (if decide (a < b) then b else a) A (δ + ε) := by
  have hδ := hx.nonneg_err
  have hε := hy.nonneg_err
  obtain ⟨x1, x2⟩ := abs_le.mp hx.err
  obtain ⟨y1, y2⟩ := abs_le.mp hy.err
  rw [show (if decide (a < b) then b else a) = (if a < b then b else a) by simp]
  by_cases h : F64.flt x y = true
  · rw [if_pos h]
    rw [flt_fin hx.fin hy.fin] at h
    by_cases h2 : a < b
    · rw [if_pos h2]; exact hy.mono le_rfl (by linarith)
    · rw [if_neg h2]
      refine ⟨hy.fin, ?_, hx.mag⟩
      rw [abs_le]; constructor <;> linarith [not_lt.mp h2]
  · rw [if_neg h]
    rw [flt_fin hx.fin hy.fin, not_lt] at h
    by_cases h2 : a < b
    · rw [if_pos h2]
      refine ⟨hx.fin, ?_, hy.mag⟩
      rw [abs_le]; constructor <;> linarith
    · rw [if_neg h2]; exact hx.mono le_rfl (by linarith)

/-- `a / (a y)` does not feel the error of `a` -/
theorem Q.ratio (hx : Q x a A δ) (hy : Q y b B ε) (m : ℝ) (hb : m ≤ b) (ha : 1 / 2 ≤ a) (hm : 1 / 8 ≤ m) (hA : A ≤ 2 ^ 10) (hB : B ≤ 2)
    (hδ : δ ≤ 1 / 8) (hε : ε ≤ 1 / 2 ^ 10) :
    Q (x / (x * y)) (a / (a * b)) (1 / m) ((ε + 1 / 2 ^ 50) / (m * (m - 1 / 2 ^ 9)) + (1 / m + 1) / 2 ^ 52) := by
  obtain ⟨x1, x2⟩ := abs_le.mp hx.err
  obtain ⟨y1, y2⟩ := abs_le.mp hy.err
  have hε0 := hy.nonneg_err
  have hx0 : 3 / 8 ≤ x.val := by linarith
  have hxM : |x.val| ≤ 2 ^ 10 + 1 := hx.val_le.trans (by linarith)
  have hyM : |y.val| ≤ 3 := hy.val_le.trans (by norm_num at *; linarith)
  have hym : m - ε ≤ y.val := by linarith
  have hp : |x.val * y.val| ≤ 2 ^ 22 := by
    rw [abs_mul]
    calc _ ≤ (2 ^ 10 + 1 : ℝ) * 3 := mul_le_mul hxM hyM (abs_nonneg _) (by positivity)
      _ ≤ _ := by norm_num
  obtain ⟨fz, ez⟩ := (mul_rounds hx.fin hy.fin).near hp (by norm_num)
  have ez' := (mul_rounds hx.fin hy.fin).err_le fz (B := |x.val * y.val|) (by
    rw [abs_mul, abs_of_pos (by linarith : 0 < x.val)]
    have : m - ε ≤ |y.val| := hym.trans (le_abs_self _)
    have h5 : (1 / 16 : ℝ) ≤ |y.val| := by norm_num at *; linarith
    calc (1 : ℝ) / 2 ^ 100 ≤ 3 / 8 * (1 / 16) := by norm_num
      _ ≤ _ := mul_le_mul hx0 h5 (by norm_num) (by linarith)) le_rfl
  -- the divisor over `x`
  have hq : |(F64.mul x y).val / x.val - b| ≤ ε + 1 / 2 ^ 51 := by
    have e : (F64.mul x y).val / x.val - b = ((F64.mul x y).val - x.val * y.val) / x.val + (y.val - b) := by
      field_simp; ring
    rw [e]
    refine (abs_add_le _ _).trans ?_
    have h6 : |((F64.mul x y).val - x.val * y.val) / x.val| ≤ 1 / 2 ^ 51 := by
      rw [abs_div, abs_of_pos (by linarith : 0 < x.val), div_le_iff₀ (by linarith)]
      refine ez'.trans ?_
      rw [abs_mul, abs_of_pos (by linarith : 0 < x.val), div_le_iff₀ (by positivity)]
      have : |y.val| ≤ 1 / 2 ^ 51 * 2 ^ 53 := hyM.trans (by norm_num)
      nlinarith
    linarith [hy.err]
  have hbp : 0 < b := by linarith
  have hm0 : (0 : ℝ) < m := by linarith
  set w := (F64.mul x y).val / x.val with hw
  obtain ⟨w1, w2⟩ := abs_le.mp hq
  have hwm : m - 1 / 2 ^ 9 ≤ w := by norm_num at *; linarith
  have hmm : (0 : ℝ) < m - 1 / 2 ^ 9 := by norm_num at *; linarith
  have hw0 : 0 < w := lt_of_lt_of_le hmm hwm
  have e1 : a / (a * b) = 1 / b := by
    have : a ≠ 0 := by linarith
    field_simp
  have e2 : x.val / (F64.mul x y).val = 1 / w := by rw [hw, one_div_div]
  have hz0 : (F64.mul x y).val ≠ 0 := by
    intro h0; rw [hw, h0, zero_div] at hw0; exact lt_irrefl _ hw0
  have hd : |1 / w - 1 / b| ≤ (ε + 1 / 2 ^ 51) / (m * (m - 1 / 2 ^ 9)) := by
    have e3 : 1 / w - 1 / b = (b - w) / (b * w) := by field_simp
    rw [e3, abs_div, abs_of_pos (mul_pos hbp hw0)]
    refine div_le_div₀ (by positivity) (by rw [abs_sub_comm]; exact hq) (by positivity) ?_
    exact mul_le_mul hb hwm hmm.le hbp.le
  have hC : |1 / b| ≤ 1 / m := by
    rw [abs_of_pos (by positivity)]; exact one_div_le_one_div_of_le hm0 hb
  have hm8 : 1 / m ≤ 8 := by
    rw [div_le_iff₀ hm0]; linarith
  have hsm : (ε + 1 / 2 ^ 51) / (m * (m - 1 / 2 ^ 9)) ≤ 1 := by
    rw [div_le_one (by positivity)]
    have h7 : (1 / 8 : ℝ) * (1 / 8 - 1 / 2 ^ 9) ≤ m * (m - 1 / 2 ^ 9) := mul_le_mul hm (by linarith) (by norm_num) hm0.le
    refine le_trans ?_ h7
    norm_num at *; linarith
  have hv : |x.val / (F64.mul x y).val| ≤ 1 / m + 1 := by
    rw [e2]
    have e4 : 1 / w = 1 / b + (1 / w - 1 / b) := by ring
    rw [e4]; exact (abs_add_le _ _).trans (add_le_add hC (hd.trans hsm))
  obtain ⟨f2, g2⟩ := (div_rounds hx.fin fz hz0).near hv (by linarith [show (9 : ℝ) ≤ 2 ^ 100 by norm_num])
  rw [e1]
  refine ⟨f2, ?_, hC⟩
  show |(F64.div x (F64.mul x y)).val - 1 / b| ≤ _
  have e5 : (F64.div x (F64.mul x y)).val - 1 / b = ((F64.div x (F64.mul x y)).val - x.val / (F64.mul x y).val) + (1 / w - 1 / b) := by
    rw [e2]; ring
  rw [e5]
  refine (abs_add_le _ _).trans ?_
  have h8 : (ε + 1 / 2 ^ 51) / (m * (m - 1 / 2 ^ 9)) ≤ (ε + 1 / 2 ^ 50) / (m * (m - 1 / 2 ^ 9)) :=
    div_le_div_of_nonneg_right (by norm_num) (by positivity)
  have h9 : (1 / m + 1) / 2 ^ 53 + 1 / 2 ^ 153 ≤ (1 / m + 1) / 2 ^ 52 := by
    have : 1 ≤ 1 / m + 1 := by have : 0 < 1 / m := by positivity
                               linarith
    generalize 1 / m + 1 = M at *
    norm_num
    linarith
  linarith

end
end F64
end Sat
