import Verif.F64.ApproxFn
/-!
# `atan2` of a vector whose length is only bounded below
-/

namespace Sat.F64
variable [Libm] {x y : F64} {a b A B δ ε : ℝ}

/-- `atan2`: the angle of a vector of length at least `m`, known to within `δ` and `ε` in each component -/
theorem Q.atan2' (hL : Libm.Faithful) (hy : Q y b B ε) (hx : Q x a A δ) (m : ℝ) (hm : 0 < m) (h1 : m ^ 2 ≤ a ^ 2 + b ^ 2) (hs : δ + ε ≤ m / 10) :
    QA (Arith.atan2 y x) (atan2R b a) 3.2 (2 * (δ + ε) / m + 1 / 2 ^ 48) := by
  show QA (Libm.atan2 y x) _ _ _
  obtain ⟨f1, f2⟩ := hL.atan2_fin y x hy.fin hx.fin
  obtain ⟨ρ, hρ, px, py⟩ := atan2_polar y.val x.val
  obtain ⟨r, hr, qx, qy⟩ := atan2_polar b a
  have hr0 : 0 ≤ r := hr ▸ Real.sqrt_nonneg _
  have hrsq : r ^ 2 = a ^ 2 + b ^ 2 := by rw [hr]; exact Real.sq_sqrt (by positivity)
  have hmr : m ≤ r := by rw [← hrsq] at h1; exact (abs_le_of_sq_le_sq' h1 hr0).2
  have hrp : 0 < r := lt_of_lt_of_le hm hmr
  have ha1 : |a| ≤ r := abs_le_of_sq_le_sq (by nlinarith [sq_nonneg b]) hr0
  have hb1 : |b| ≤ r := abs_le_of_sq_le_sq (by nlinarith [sq_nonneg a]) hr0
  have hδ := hx.nonneg_err
  have hε := hy.nonneg_err
  have hdot : 9 / 10 * r ^ 2 ≤ x.val * a + y.val * b := by
    have e : x.val * a + y.val * b = r ^ 2 + ((x.val - a) * a + (y.val - b) * b) := by linear_combination -hrsq
    have h2 : |(x.val - a) * a + (y.val - b) * b| ≤ (δ + ε) * r := by
      rw [add_mul]
      refine (abs_add_le _ _).trans (add_le_add ?_ ?_) <;> rw [abs_mul]
      · exact mul_le_mul hx.err ha1 (abs_nonneg _) hδ
      · exact mul_le_mul hy.err hb1 (abs_nonneg _) hε
    have h3 : (δ + ε) * r ≤ r / 10 * r := mul_le_mul_of_nonneg_right (by linarith) hr0
    rw [e]; nlinarith [(abs_le.mp h2).1]
  have hρ0 : 0 ≤ ρ := hρ ▸ Real.sqrt_nonneg _
  have hρsq : ρ ^ 2 = x.val ^ 2 + y.val ^ 2 := by rw [hρ]; exact Real.sq_sqrt (by positivity)
  have hρ9 : 9 / 10 * r ≤ ρ := by
    have h2 : (x.val * a + y.val * b) ^ 2 ≤ (ρ * r) ^ 2 := by
      rw [mul_pow, hρsq, hrsq]; nlinarith [sq_nonneg (x.val * b - y.val * a)]
    have h3 := (abs_le_of_sq_le_sq' h2 (mul_nonneg hρ0 hr0)).2
    have h4 : 9 / 10 * r * r ≤ ρ * r := by nlinarith
    exact le_of_mul_le_mul_right h4 hrp
  set φ := atan2R y.val x.val with hφ
  set θ := atan2R b a with hθ
  have hsin : |Real.sin (φ - θ)| ≤ (δ + ε) / (9 / 10 * m) := by
    have e : ρ * r * Real.sin (φ - θ) = (y.val - b) * a - (x.val - a) * b := by
      rw [Real.sin_sub]
      have : ρ * r * (Real.sin φ * Real.cos θ - Real.cos φ * Real.sin θ) = y.val * a - x.val * b := by
        rw [px, py]
        conv_rhs => rw [qx, qy]
        ring
      rw [this]; ring
    have h2 : |(y.val - b) * a - (x.val - a) * b| ≤ (δ + ε) * r := by
      have h3 := abs_sub ((y.val - b) * a) ((x.val - a) * b)
      rw [abs_mul, abs_mul] at h3
      have h4 : |y.val - b| * |a| ≤ ε * r := mul_le_mul hy.err ha1 (abs_nonneg _) hε
      have h5 : |x.val - a| * |b| ≤ δ * r := mul_le_mul hx.err hb1 (abs_nonneg _) hδ
      linarith
    rw [← e, abs_mul, abs_of_nonneg (mul_nonneg hρ0 hr0)] at h2
    have h6 : ρ * |Real.sin (φ - θ)| ≤ δ + ε := by
      refine le_of_mul_le_mul_right ?_ hrp
      linarith
    rw [le_div_iff₀ (by positivity)]
    have h7 : |Real.sin (φ - θ)| * (9 / 10 * m) ≤ |Real.sin (φ - θ)| * ρ := mul_le_mul_of_nonneg_left (by linarith) (abs_nonneg _)
    linarith
  have hcos : 0 < Real.cos (φ - θ) := by
    have e : ρ * r * Real.cos (φ - θ) = x.val * a + y.val * b := by
      rw [Real.cos_sub, px, py]
      conv_rhs => rw [qx, qy]
      ring
    by_contra hc
    have h8 : ρ * r * Real.cos (φ - θ) ≤ 0 := mul_nonpos_of_nonneg_of_nonpos (mul_nonneg hρ0 hr0) (not_lt.mp hc)
    have : 0 < r ^ 2 := pow_pos hrp 2
    linarith
  obtain ⟨k, hk⟩ := near_turn hcos hsin
  have hne : y.val ≠ 0 ∨ x.val ≠ 0 := by
    by_contra hc
    rw [not_or, not_not, not_not] at hc
    rw [hc.1, hc.2] at hdot
    have : 0 < r ^ 2 := pow_pos hrp 2
    linarith
  obtain ⟨j, hj⟩ := hL.atan2_acc y x hy.fin hx.fin hne
  refine ⟨f1, f2.trans (by rw [pi_val.2]; norm_num), k + j, ?_⟩
  have e : (Libm.atan2 y x).val - (θ + ((k + j : ℤ) : ℝ) * (2 * Real.pi)) =
      ((Libm.atan2 y x).val - (φ + j * (2 * Real.pi))) + (φ - θ - k * (2 * Real.pi)) := by push_cast; ring
  rw [e]
  refine (abs_add_le _ _).trans ?_
  have : 1.6 * ((δ + ε) / (9 / 10 * m)) ≤ 2 * (δ + ε) / m := by
    rw [← mul_div_assoc, div_le_div_iff₀ (by positivity) hm]
    nlinarith
  linarith

end Sat.F64
