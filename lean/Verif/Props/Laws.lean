import Verif.Props.Samples
/-!
# The laws of motion: C86 (energy) and C87 (areas)

The state returned is compared with the motion under the attraction of a point mass, on the ellipse of the mean elements: the perturbations
of the theory change the energy equation by at most 0.8 % and the areal velocity by at most 0.6 %.  Exact arithmetic.
-/

namespace Sat
open Spec.R3

set_option maxHeartbeats 1600000 in
/-- Sizes of the perturbations of the theory, for the mean orbit `m` at the eccentric longitude `E`. -/
theorem perturbation_bounds (m : Mean) (E : ℝ) (he : 0 ≤ m.e ∧ m.e ≤ 1 / 2) (hp : 1 ≤ m.a * (1 - m.e)) :
    1 ≤ m.a ∧ 0.998 ≤ m.pL ∧ 0.998 ≤ m.r E ∧ m.r E ≤ 1.502 * m.a ∧ m.eL2 ≤ 1 ∧ |m.pL - m.a * (1 - m.e ^ 2)| ≤ 0.0016 ∧
      |m.rk E - m.r E| ≤ 0.001914 * m.r E ∧
      |m.rdotk E - m.rdot E| ≤ k2 * m.n / m.pL ∧ |m.rfdotk E - m.rfdot E| ≤ 3 * (k2 * m.n / m.pL) := by
  obtain ⟨he0, he1⟩ := he
  have ha1 : 1 ≤ m.a := by
    by_contra h
    push Not at h
    nlinarith
  have ha0 : 0 < m.a := by linarith
  have hE2 : 3 / 4 ≤ 1 - m.e ^ 2 := by nlinarith
  set c := longAy m.i / (m.a * (1 - m.e ^ 2)) with hc
  have hac : m.a * |c| ≤ 0.00156 := by
    have h1 : m.a * |c| = |longAy m.i| / (1 - m.e ^ 2) := by
      rw [hc, abs_div, abs_of_pos (by positivity : 0 < m.a * (1 - m.e ^ 2))]
      field_simp
    rw [h1, div_le_iff₀ (by linarith)]
    have := longAy_small m.i
    calc _ ≤ 0.00117 := this
      _ ≤ 0.00156 * (3 / 4) := by norm_num
      _ ≤ _ := by gcongr
  have hc0 := abs_nonneg c
  have hc1 : |c| ≤ 0.00156 := by nlinarith
  have h1 : m.eL2 = m.e ^ 2 + 2 * m.e * (Real.sin m.ω * c) + c ^ 2 := by
    unfold Mean.eL2 Mean.axN Mean.ayN
    rw [← hc]
    linear_combination m.e ^ 2 * Real.sin_sq_add_cos_sq m.ω
  have h2 : |Real.sin m.ω * c| ≤ |c| := by
    calc |Real.sin m.ω * c| = |Real.sin m.ω| * |c| := abs_mul _ _
      _ ≤ 1 * |c| := by gcongr; exact Real.abs_sin_le_one _
      _ = _ := one_mul _
  have hf : m.eL2 ≤ (m.e + |c|) ^ 2 := by
    rw [h1, add_sq, sq_abs]
    have : 2 * m.e * (Real.sin m.ω * c) ≤ 2 * m.e * |c| := by gcongr; exact (le_abs_self _).trans h2
    linarith
  have hf0 : 0 ≤ m.e + |c| := by positivity
  obtain ⟨d1, d2⟩ := newton_denominator hf hf0 E
  have hr : m.r E = m.a * (1 - m.axN * Real.cos E - m.ayN * Real.sin E) := by unfold Mean.r Mean.ecosE; ring
  have hr1 : m.a * (1 - m.e) - 0.00156 ≤ m.r E := by
    rw [hr]
    calc _ ≤ m.a * (1 - (m.e + |c|)) := by linarith
      _ ≤ _ := by gcongr
  have hr2 : m.r E ≤ 1.502 * m.a := by
    rw [hr]
    calc _ ≤ m.a * (1 + (m.e + |c|)) := by gcongr
      _ ≤ m.a * 1.502 := by gcongr; linarith
      _ = _ := by ring
  have hf1 : m.e + |c| ≤ 1 := by linarith
  have hel1 : m.eL2 ≤ 1 := hf.trans (by nlinarith)
  have hel0 : 0 ≤ m.eL2 := by unfold Mean.eL2; positivity
  have hpL : 0.998 ≤ m.pL := by
    unfold Mean.pL
    have : m.e + |c| - m.eL2 ≥ 0 := by nlinarith
    calc (0.998 : ℝ) ≤ m.a * (1 - m.e) - 0.00156 := by linarith
      _ ≤ m.a * (1 - (m.e + |c|)) := by linarith
      _ ≤ _ := by gcongr; linarith
  have hr0 : 0 < m.r E := by linarith
  have hr98 : 0.998 ≤ m.r E := by linarith
  have hsc := sinu_sq_add_cosu_sq m E hr0.ne' hel1
  have hcos : |m.cos2u E| ≤ 1 := by
    unfold Mean.cos2u
    rw [abs_le]
    constructor <;> nlinarith [sq_nonneg (m.sinu E), sq_nonneg (m.cosu E)]
  have hsin : |m.sin2u E| ≤ 1 := by
    unfold Mean.sin2u
    rw [abs_le]
    constructor <;> nlinarith [sq_nonneg (m.sinu E + m.cosu E), sq_nonneg (m.sinu E - m.cosu E)]
  have hθ0 : 0 ≤ m.θ ^ 2 := sq_nonneg _
  have hθ1 : m.θ ^ 2 ≤ 1 := by unfold Mean.θ; exact Real.cos_sq_le_one _
  have hk : (0:ℝ) < k2 ∧ k2 ≤ 0.000542 := by unfold k2 j2; norm_num
  have hk0 := hk.1.le
  have hb0 : 0 ≤ Real.sqrt (1 - m.eL2) := Real.sqrt_nonneg _
  have hb1 : Real.sqrt (1 - m.eL2) ≤ 1 := by
    exact Real.sqrt_le_one.mpr (by linarith)
  have hq : 0 ≤ 3 / 2 * k2 * Real.sqrt (1 - m.eL2) / m.pL ^ 2 ∧ 3 / 2 * k2 * Real.sqrt (1 - m.eL2) / m.pL ^ 2 ≤ 0.00082 := by
    refine ⟨by positivity, ?_⟩
    rw [div_le_iff₀ (by positivity)]
    have h2 : (0.996004 : ℝ) ≤ m.pL ^ 2 := by nlinarith
    calc 3 / 2 * k2 * Real.sqrt (1 - m.eL2) ≤ 3 / 2 * 0.000542 * 1 := by gcongr; exact hk.2
      _ ≤ 0.00082 * 0.996004 := by norm_num
      _ ≤ _ := by gcongr
  have hs : |k2 / (2 * m.pL) * (1 - m.θ ^ 2) * m.cos2u E| ≤ 0.000272 := by
    have h1 : 0 ≤ k2 / (2 * m.pL) := by positivity
    have h2 : k2 / (2 * m.pL) ≤ 0.000272 := by
      rw [div_le_iff₀ (by positivity)]
      linarith [hk.2]
    rw [abs_mul, abs_mul, abs_of_nonneg h1, abs_of_nonneg (by linarith : 0 ≤ 1 - m.θ ^ 2)]
    have h3 : 1 - m.θ ^ 2 ≤ 1 := by linarith
    have h4 : k2 / (2 * m.pL) * (1 - m.θ ^ 2) ≤ 0.000272 * 1 := mul_le_mul h2 h3 (by linarith) (by norm_num)
    have h5 := mul_le_mul h4 hcos (abs_nonneg _) (by norm_num)
    linarith
  have hn0 : 0 ≤ m.n := by unfold Mean.n ke; positivity
  have hD : 0 ≤ k2 * m.n / m.pL := by positivity
  refine ⟨ha1, hpL, hr98, hr2, hel1, ?_, ?_, ?_, ?_⟩
  · have e : m.pL - m.a * (1 - m.e ^ 2) = -(2 * m.e * (Real.sin m.ω * (m.a * c)) + m.a * c * c) := by
      unfold Mean.pL; rw [h1]; ring
    have hx : |Real.sin m.ω * (m.a * c)| ≤ 0.00156 := by
      rw [abs_mul, abs_mul, abs_of_pos ha0]
      calc _ ≤ 1 * (m.a * |c|) := by gcongr; exact Real.abs_sin_le_one _
        _ ≤ _ := by linarith
    rw [e, abs_neg]
    refine (abs_add_le _ _).trans ?_
    have y1 : |2 * m.e * (Real.sin m.ω * (m.a * c))| ≤ 1 * 0.00156 := by
      rw [abs_mul, abs_of_nonneg (by positivity : 0 ≤ 2 * m.e)]
      exact mul_le_mul (by linarith) hx (abs_nonneg _) (by norm_num)
    have y2 : |m.a * c * c| ≤ 0.00156 * 0.00156 := by
      rw [abs_mul, abs_mul, abs_of_pos ha0]
      exact mul_le_mul hac hc1 hc0 (by norm_num)
    norm_num at *; linarith
  · set q := 3 / 2 * k2 * Real.sqrt (1 - m.eL2) / m.pL ^ 2
    have ht : |q * (3 * m.θ ^ 2 - 1)| ≤ 0.00164 := by
      have h1 : |3 * m.θ ^ 2 - 1| ≤ 2 := by rw [abs_le]; constructor <;> linarith
      rw [abs_mul, abs_of_nonneg hq.1]
      have h2 := mul_le_mul hq.2 h1 (abs_nonneg _) (by norm_num)
      linarith
    have hrk : m.rk E - m.r E = -(m.r E * (q * (3 * m.θ ^ 2 - 1))) + k2 / (2 * m.pL) * (1 - m.θ ^ 2) * m.cos2u E := by
      show m.r E * (1 - q * (3 * m.θ ^ 2 - 1)) + k2 / (2 * m.pL) * (1 - m.θ ^ 2) * m.cos2u E - m.r E = _
      ring
    rw [hrk]
    refine (abs_add_le _ _).trans ?_
    rw [abs_neg, abs_mul, abs_of_pos hr0]
    have h6 : m.r E * |q * (3 * m.θ ^ 2 - 1)| ≤ m.r E * 0.00164 := by gcongr
    norm_num at *; linarith
  · have e : m.rdotk E - m.rdot E = -(k2 * m.n / m.pL * ((1 - m.θ ^ 2) * m.sin2u E)) := by unfold Mean.rdotk; ring
    rw [e, abs_neg, abs_mul, abs_of_nonneg hD]
    refine mul_le_of_le_one_right hD ?_
    rw [abs_mul, abs_of_nonneg (by linarith)]
    exact mul_le_one₀ (by linarith) (abs_nonneg _) hsin
  · have e : m.rfdotk E - m.rfdot E = k2 * m.n / m.pL * ((1 - m.θ ^ 2) * m.cos2u E - 3 / 2 * (1 - 3 * m.θ ^ 2)) := by
      unfold Mean.rfdotk; ring
    rw [e, abs_mul, abs_of_nonneg hD, mul_comm]
    gcongr
    obtain ⟨c1, c2⟩ := abs_le.mp hcos
    rw [abs_le]
    constructor <;> nlinarith

/-- Speed and distance of the unperturbed motion: the energy equation. -/
theorem energy_kepler (m : Mean) (E : ℝ) (ha : 0 < m.a) (hr : 0 < m.r E) (he : m.eL2 ≤ 1) :
    (m.rdot E ^ 2 + m.rfdot E ^ 2) * m.r E = ke ^ 2 * (2 - m.r E / m.a) := by
  have hes : m.eL2 = m.ecosE E ^ 2 + m.esinE E ^ 2 := by
    unfold Mean.eL2 Mean.ecosE Mean.esinE
    linear_combination (-(m.axN ^ 2 + m.ayN ^ 2)) * Real.sin_sq_add_cos_sq E
  have hp : 0 ≤ m.pL := mul_nonneg ha.le (by linarith)
  have e1 : m.rdot E ^ 2 + m.rfdot E ^ 2 = ke ^ 2 * (m.a * m.esinE E ^ 2 + m.pL) / m.r E ^ 2 := by
    unfold Mean.rdot Mean.rfdot
    rw [div_pow, div_pow, mul_pow, mul_pow, mul_pow, Real.sq_sqrt ha.le, Real.sq_sqrt hp]
    ring
  have e2 : m.pL = m.a * (1 - m.ecosE E ^ 2 - m.esinE E ^ 2) := by unfold Mean.pL; rw [hes]; ring
  have e3 : m.r E = m.a * (1 - m.ecosE E) := rfl
  have e4 : m.ecosE E = 1 - m.r E / m.a := by rw [e3]; field_simp; ring
  rw [e1, e2, e4]
  field_simp
  ring

set_option maxHeartbeats 1600000 in
/-- The energy equation for the perturbed state. -/
theorem energy_bound (m : Mean) (E : ℝ) (he : 0 ≤ m.e ∧ m.e ≤ 1 / 2) (hp : 1 ≤ m.a * (1 - m.e)) :
    |(m.rdotk E ^ 2 + m.rfdotk E ^ 2) * m.rk E / ke ^ 2 + m.rk E / m.a - 2| ≤ 0.0076 := by
  obtain ⟨ha1, hpL, hr1, hr2, hel, -, hrk, hx, hy⟩ := perturbation_bounds m E he hp
  have ha0 : 0 < m.a := by linarith
  have hr0 : 0 < m.r E := by linarith
  have hK := energy_kepler m E ha0 hr0 hel
  have hke : 0 < ke := by unfold ke; norm_num
  have hk : (0:ℝ) < k2 ∧ k2 ≤ 0.000542 := by unfold k2 j2; norm_num
  have hk0 := hk.1.le
  have hn2 : m.n ^ 2 = ke ^ 2 / m.a ^ 3 := by
    unfold Mean.n
    rw [div_pow, ← Real.rpow_natCast (m.a ^ (3 / 2 : ℝ)) 2, ← Real.rpow_mul ha0.le]
    norm_num
  set D := k2 * m.n / m.pL with hD
  set X := m.rdot E; set Y := m.rfdot E
  set dx := m.rdotk E - X with hdx
  set dy := m.rfdotk E - Y with hdy
  set r := m.r E
  set ρ := m.rk E
  have hD2 : D ^ 2 = k2 ^ 2 * ke ^ 2 / (m.a ^ 3 * m.pL ^ 2) := by
    rw [hD, div_pow, mul_pow, hn2]; field_simp
  have hd2 : dx ^ 2 + dy ^ 2 ≤ 10 * D ^ 2 := by
    have h1 := sq_le_sq' (abs_le.mp hx).1 (abs_le.mp hx).2
    have h2 := sq_le_sq' (abs_le.mp hy).1 (abs_le.mp hy).2
    nlinarith
  have hd0 : 0 ≤ dx ^ 2 + dy ^ 2 := by positivity
  -- speed times distance
  have hV : (X ^ 2 + Y ^ 2) * r ^ 2 ≤ ke ^ 2 * m.a := by
    have : (X ^ 2 + Y ^ 2) * r ^ 2 = ke ^ 2 * (2 * r - r ^ 2 / m.a) := by
      calc _ = (X ^ 2 + Y ^ 2) * r * r := by ring
        _ = _ := by rw [hK]; ring
    rw [this]
    gcongr
    have e : m.a - (2 * r - r ^ 2 / m.a) = (m.a - r) ^ 2 / m.a := by field_simp; ring
    have : 0 ≤ (m.a - r) ^ 2 / m.a := by positivity
    linarith
  have hbig : 1 ≤ m.a ^ 2 := by nlinarith
  have hpp : (0.996 : ℝ) ≤ m.pL ^ 2 := by nlinarith
  have hcross : |(X * dx + Y * dy) * r / ke ^ 2| ≤ 0.00172 := by
    refine abs_le_of_sq_le_sq ?_ (by norm_num)
    have h1 : (X * dx + Y * dy) ^ 2 ≤ (X ^ 2 + Y ^ 2) * (dx ^ 2 + dy ^ 2) := by nlinarith [sq_nonneg (X * dy - Y * dx)]
    rw [div_pow, mul_pow, div_le_iff₀ (by positivity)]
    calc (X * dx + Y * dy) ^ 2 * r ^ 2 ≤ (X ^ 2 + Y ^ 2) * (dx ^ 2 + dy ^ 2) * r ^ 2 := by gcongr
      _ = ((X ^ 2 + Y ^ 2) * r ^ 2) * (dx ^ 2 + dy ^ 2) := by ring
      _ ≤ (ke ^ 2 * m.a) * (10 * D ^ 2) := by gcongr
      _ = 10 * k2 ^ 2 * (ke ^ 2) ^ 2 / (m.a ^ 2 * m.pL ^ 2) := by rw [hD2]; field_simp
      _ ≤ 10 * 0.000542 ^ 2 * (ke ^ 2) ^ 2 / (1 * 0.996) := by gcongr; exact hk.2
      _ = (10 * 0.000542 ^ 2 / 0.996) * (ke ^ 2) ^ 2 := by ring
      _ ≤ _ := by gcongr; norm_num
  have hquad : |(dx ^ 2 + dy ^ 2) * r / ke ^ 2| ≤ 0.00001 := by
    rw [abs_of_nonneg (by positivity), div_le_iff₀ (by positivity)]
    calc (dx ^ 2 + dy ^ 2) * r ≤ (10 * D ^ 2) * (1.502 * m.a) := by gcongr
      _ = 15.02 * k2 ^ 2 * ke ^ 2 / (m.a ^ 2 * m.pL ^ 2) := by rw [hD2]; field_simp; norm_num; ring
      _ ≤ 15.02 * 0.000542 ^ 2 * ke ^ 2 / (1 * 0.996) := by gcongr; exact hk.2
      _ = (15.02 * 0.000542 ^ 2 / 0.996) * ke ^ 2 := by ring
      _ ≤ _ := by gcongr; norm_num
  -- ratio of the distances
  obtain ⟨q, hq, hq1⟩ : ∃ q, ρ = r * (1 + q) ∧ |q| ≤ 0.001914 := by
    refine ⟨(ρ - r) / r, by field_simp; ring, ?_⟩
    rw [abs_div, abs_of_pos hr0, div_le_iff₀ hr0]; exact hrk
  have e : (m.rdotk E ^ 2 + m.rfdotk E ^ 2) * ρ / ke ^ 2 + ρ / m.a - 2 =
      2 * q + (1 + q) * (2 * ((X * dx + Y * dy) * r / ke ^ 2) + (dx ^ 2 + dy ^ 2) * r / ke ^ 2) := by
    have e1 : m.rdotk E = X + dx := by rw [hdx]; ring
    have e2 : m.rfdotk E = Y + dy := by rw [hdy]; ring
    rw [e1, e2, hq]
    have e3 : ((X + dx) ^ 2 + (Y + dy) ^ 2) * (r * (1 + q)) / ke ^ 2 =
        (1 + q) * (((X ^ 2 + Y ^ 2) * r) / ke ^ 2 + 2 * ((X * dx + Y * dy) * r / ke ^ 2) + (dx ^ 2 + dy ^ 2) * r / ke ^ 2) := by ring
    rw [e3, hK, mul_div_cancel_left₀ _ (by positivity)]
    ring
  rw [e]
  obtain ⟨a1, a2⟩ := abs_le.mp hcross
  obtain ⟨b1, b2⟩ := abs_le.mp hquad
  obtain ⟨q1, q2⟩ := abs_le.mp hq1
  set Z := 2 * ((X * dx + Y * dy) * r / ke ^ 2) + (dx ^ 2 + dy ^ 2) * r / ke ^ 2 with hZ
  have z1 : |Z| ≤ 0.00345 := by rw [abs_le]; constructor <;> (norm_num at *; linarith)
  have z2 : |(1 + q) * Z| ≤ 1.002 * 0.00345 := by
    rw [abs_mul]
    refine mul_le_mul ?_ z1 (abs_nonneg _) (by norm_num)
    rw [abs_le]; constructor <;> (norm_num at *; linarith)
  obtain ⟨w1, w2⟩ := abs_le.mp z2
  rw [abs_le]
  constructor <;> (norm_num at *; linarith)

set_option maxHeartbeats 1600000 in
/-- Twice the areal velocity of the perturbed motion, squared, against that of the mean ellipse. -/
theorem area_bound (m : Mean) (E : ℝ) (he : 0 ≤ m.e ∧ m.e ≤ 1 / 2) (hp : 1 ≤ m.a * (1 - m.e)) :
    |(m.rk E * m.rfdotk E) ^ 2 / (ke ^ 2 * (m.a * (1 - m.e ^ 2))) - 1| ≤ 0.0109 := by
  obtain ⟨ha1, hpL, hr1, hr2, hel, hpp, hrk, -, hy⟩ := perturbation_bounds m E he hp
  have ha0 : 0 < m.a := by linarith
  have hr0 : 0 < m.r E := by linarith
  have hp0 : 0 < m.pL := by linarith
  have hke : 0 < ke := by unfold ke; norm_num
  have hk : (0:ℝ) < k2 ∧ k2 ≤ 0.000542 := by unfold k2 j2; norm_num
  have hk0 := hk.1.le
  set P := m.a * (1 - m.e ^ 2) with hP
  have hP1 : 1 ≤ P := by
    have : P = m.a * (1 - m.e) * (1 + m.e) := by rw [hP]; ring
    rw [this]; nlinarith [he.1]
  set S := Real.sqrt m.pL with hS
  have hS2 : S ^ 2 = m.pL := Real.sq_sqrt hp0.le
  have hS0 : 0 < S := Real.sqrt_pos.mpr hp0
  obtain ⟨q, hq, hq1⟩ : ∃ q, m.rk E = m.r E * (1 + q) ∧ |q| ≤ 0.001914 := by
    refine ⟨(m.rk E - m.r E) / m.r E, by field_simp; ring, ?_⟩
    rw [abs_div, abs_of_pos hr0, div_le_iff₀ hr0]; exact hrk
  have hn2 : m.n ^ 2 = ke ^ 2 / m.a ^ 3 := by
    unfold Mean.n
    rw [div_pow, ← Real.rpow_natCast (m.a ^ (3 / 2 : ℝ)) 2, ← Real.rpow_mul ha0.le]
    norm_num
  have hY : m.rfdot E * m.r E = ke * S := by
    unfold Mean.rfdot; rw [div_mul_cancel₀ _ hr0.ne']
  obtain ⟨w, hw, hw1⟩ : ∃ w, m.rfdotk E * m.r E = ke * S * (1 + w) ∧ |w| ≤ 0.00246 := by
    refine ⟨(m.rfdotk E - m.rfdot E) * m.r E / (ke * S), ?_, ?_⟩
    · have : ke * S * (1 + (m.rfdotk E - m.rfdot E) * m.r E / (ke * S)) = ke * S + (m.rfdotk E - m.rfdot E) * m.r E := by
        field_simp
      rw [this, ← hY]; ring
    · refine abs_le_of_sq_le_sq ?_ (by norm_num)
      rw [div_pow, mul_pow, mul_pow, div_le_iff₀ (by positivity)]
      have h2 := sq_le_sq' (abs_le.mp hy).1 (abs_le.mp hy).2
      have h3 : (k2 * m.n / m.pL) ^ 2 = k2 ^ 2 * ke ^ 2 / (m.a ^ 3 * m.pL ^ 2) := by
        rw [div_pow, mul_pow, hn2]; field_simp
      calc (m.rfdotk E - m.rfdot E) ^ 2 * m.r E ^ 2 ≤ (3 * (k2 * m.n / m.pL)) ^ 2 * (1.502 * m.a) ^ 2 := by gcongr
        _ = 9 * 1.502 ^ 2 * k2 ^ 2 * (ke ^ 2 * S ^ 2) / (m.a * m.pL ^ 3) := by rw [mul_pow, h3, hS2]; field_simp; ring
        _ ≤ 9 * 1.502 ^ 2 * 0.000542 ^ 2 * (ke ^ 2 * S ^ 2) / (1 * 0.998 ^ 3) := by gcongr; exact hk.2
        _ = (9 * 1.502 ^ 2 * 0.000542 ^ 2 / 0.998 ^ 3) * (ke ^ 2 * S ^ 2) := by ring
        _ ≤ _ := by gcongr; norm_num
  have e : (m.rk E * m.rfdotk E) ^ 2 / (ke ^ 2 * P) = ((1 + q) * (1 + w)) ^ 2 * (m.pL / P) := by
    have : m.rk E * m.rfdotk E = ke * S * ((1 + q) * (1 + w)) := by
      rw [hq]; linear_combination (1 + q) * hw
    rw [this, mul_pow, mul_pow, hS2]; field_simp
  obtain ⟨z, hz, hz1⟩ : ∃ z, m.pL / P = 1 + z ∧ |z| ≤ 0.0016 := by
    refine ⟨(m.pL - P) / P, by field_simp; ring, ?_⟩
    rw [abs_div, abs_of_pos (by linarith : 0 < P), div_le_iff₀ (by linarith)]
    nlinarith
  rw [e, hz]
  obtain ⟨q1, q2⟩ := abs_le.mp hq1
  obtain ⟨w1, w2⟩ := abs_le.mp hw1
  obtain ⟨z1, z2⟩ := abs_le.mp hz1
  have g1 : ((1 + q) * (1 + w)) ≤ 1.001914 * 1.00246 := mul_le_mul (by linarith) (by linarith) (by linarith) (by norm_num)
  have g2 : (0.998086 : ℝ) * 0.99754 ≤ ((1 + q) * (1 + w)) := mul_le_mul (by linarith) (by linarith) (by norm_num) (by linarith)
  set G := (1 + q) * (1 + w)
  have g3 : G ^ 2 ≤ (1.001914 * 1.00246) ^ 2 := by gcongr
  have g4 : ((0.998086 : ℝ) * 0.99754) ^ 2 ≤ G ^ 2 := by gcongr
  have g5 : G ^ 2 * (1 + z) ≤ (1.001914 * 1.00246) ^ 2 * 1.0016 := mul_le_mul g3 (by linarith) (by linarith) (by norm_num)
  have g6 : ((0.998086 : ℝ) * 0.99754) ^ 2 * 0.9984 ≤ G ^ 2 * (1 + z) := mul_le_mul g4 (by linarith) (by norm_num) (by positivity)
  rw [abs_le]
  constructor <;> (norm_num at *; linarith)

/-- position and velocity are carried by two perpendicular unit vectors -/
theorem frame_lengths (m : Mean) (E : ℝ) {p w : Vec3 ℝ} (hp : p = vec (m.positionKm E)) (hw : w = vec (m.velocityKmS E)) :
    p.x ^ 2 + p.y ^ 2 + p.z ^ 2 = (m.rk E * kmPerRadius) ^ 2 ∧
    w.x ^ 2 + w.y ^ 2 + w.z ^ 2 = (m.rdotk E ^ 2 + m.rfdotk E ^ 2) * (kmPerRadius / 60) ^ 2 ∧
    p.x * w.x + p.y * w.y + p.z * w.z = m.rk E * m.rdotk E * kmPerRadius * (kmPerRadius / 60) := by
  rw [hp, hw]
  show (m.positionKm E 0) ^ 2 + (m.positionKm E 1) ^ 2 + (m.positionKm E 2) ^ 2 = _ ∧
    (m.velocityKmS E 0) ^ 2 + (m.velocityKmS E 1) ^ 2 + (m.velocityKmS E 2) ^ 2 = _ ∧
    m.positionKm E 0 * m.velocityKmS E 0 + m.positionKm E 1 * m.velocityKmS E 1 + m.positionKm E 2 * m.velocityKmS E 2 = _
  unfold Mean.positionKm Mean.velocityKmS
  have hU : m.Uvec E 0 ^ 2 + m.Uvec E 1 ^ 2 + m.Uvec E 2 ^ 2 = 1 ∧ m.Vvec E 0 ^ 2 + m.Vvec E 1 ^ 2 + m.Vvec E 2 ^ 2 = 1 ∧
      m.Uvec E 0 * m.Vvec E 0 + m.Uvec E 1 * m.Vvec E 1 + m.Uvec E 2 * m.Vvec E 2 = 0 := by
    unfold Mean.Uvec Mean.Vvec
    simp only [Matrix.cons_val_zero, Matrix.cons_val_one, Matrix.cons_val]
    generalize m.Ωk E = a, m.ik E = b, m.uk E = c
    have ea := Real.sin_sq_add_cos_sq a
    have eb := Real.sin_sq_add_cos_sq b
    have ec := Real.sin_sq_add_cos_sq c
    generalize Real.sin a = sa, Real.cos a = ca, Real.sin b = sb, Real.cos b = cb, Real.sin c = sc, Real.cos c = cc at *
    refine ⟨?_, ?_, ?_⟩
    · linear_combination (cb ^ 2 * sc ^ 2 + cc ^ 2) * ea + sc ^ 2 * eb + ec
    · linear_combination (cb ^ 2 * cc ^ 2 + sc ^ 2) * ea + cc ^ 2 * eb + ec
    · linear_combination (cb ^ 2 * sc * cc - sc * cc) * ea + sc * cc * eb
  obtain ⟨u, v, uv⟩ := hU
  refine ⟨?_, ?_, ?_⟩
  · linear_combination (m.rk E * kmPerRadius) ^ 2 * u
  · linear_combination (kmPerRadius / 60) ^ 2 * (m.rdotk E ^ 2 * u + m.rfdotk E ^ 2 * v + 2 * m.rdotk E * m.rfdotk E * uv)
  · linear_combination m.rk E * kmPerRadius * (kmPerRadius / 60) * (m.rdotk E * u + m.rfdotk E * uv)

/-- The statement of C86: with gravitational parameter 398600.5 km³/s² and semi-major axis `a` (km), the energy equation
`v² = μ (2 / r - 1 / a)` holds of distance and speed, multiplied by `r / μ`, up to 0.008. -/
def EnergyLaw (p w : Vec3 ℝ) (a : ℝ) : Prop :=
  |(w.x ^ 2 + w.y ^ 2 + w.z ^ 2) * Real.sqrt (p.x ^ 2 + p.y ^ 2 + p.z ^ 2) / 398600.5 +
      Real.sqrt (p.x ^ 2 + p.y ^ 2 + p.z ^ 2) / a - 2| ≤ 0.008

/-- The statement of C87: the square of `position × velocity` (twice the area swept in a second) is `μ a (1 - e²)`, up to 1.1 %. -/
def AreaLaw (p w : Vec3 ℝ) (a e : ℝ) : Prop :=
  |((p.y * w.z - p.z * w.y) ^ 2 + (p.z * w.x - p.x * w.z) ^ 2 + (p.x * w.y - p.y * w.x) ^ 2) / (398600.5 * (a * (1 - e ^ 2))) - 1| ≤ 0.011

theorem laws_of_state (m : Mean) (E : ℝ) (he : 0 ≤ m.e ∧ m.e ≤ 1 / 2) (hp : 1 ≤ m.a * (1 - m.e)) {p w : Vec3 ℝ}
    (hpos : p = vec (m.positionKm E)) (hvel : w = vec (m.velocityKmS E)) :
    EnergyLaw p w (m.a * 6378.137) ∧ AreaLaw p w (m.a * 6378.137) m.e := by
  obtain ⟨l1, l2, l3⟩ := frame_lengths m E hpos hvel
  obtain ⟨ha1, hpL, hr1, hr2, hel, -, hrk, -, -⟩ := perturbation_bounds m E he hp
  have ha0 : 0 < m.a := by linarith
  have hr0 : 0 ≤ m.rk E := by
    have := (abs_le.mp hrk).1
    nlinarith
  have hR : kmPerRadius = 6378.137 := rfl
  have hke : 0 < ke := by unfold ke; norm_num
  -- the gravitational parameter in the two systems of units
  obtain ⟨g, hg, hg1⟩ : ∃ g, ke ^ 2 * 6378.137 ^ 3 / 3600 = 398600.5 * (1 + g) ∧ |g| ≤ 1e-9 := by
    refine ⟨ke ^ 2 * 6378.137 ^ 3 / 3600 / 398600.5 - 1, by ring, ?_⟩
    unfold ke
    rw [abs_le]; constructor <;> norm_num
  obtain ⟨g1, g2⟩ := abs_le.mp hg1
  have he1 : 0 < 1 - m.e ^ 2 := by nlinarith [he.1, he.2]
  constructor
  · have hb := energy_bound m E he hp
    unfold EnergyLaw
    rw [l1, l2, hR, Real.sqrt_sq (by positivity)]
    set Z := (m.rdotk E ^ 2 + m.rfdotk E ^ 2) * m.rk E / ke ^ 2 with hZ
    have hZ0 : 0 ≤ Z := by positivity
    have e1 : (m.rdotk E ^ 2 + m.rfdotk E ^ 2) * (6378.137 / 60) ^ 2 * (m.rk E * 6378.137) / 398600.5 = Z * (1 + g) := by
      have : Z * (1 + g) = Z * (398600.5 * (1 + g)) / 398600.5 := by ring
      rw [this, ← hg, hZ]; field_simp; norm_num; ring
    have e2 : m.rk E * 6378.137 / (m.a * 6378.137) = m.rk E / m.a := by field_simp
    rw [e1, e2]
    have hq0 : 0 ≤ m.rk E / m.a := by positivity
    obtain ⟨b1, b2⟩ := abs_le.mp hb
    have hZ1 : Z ≤ 2.01 := by norm_num at *; linarith
    have k1 : |Z * g| ≤ 2.01 * 1e-9 := by
      rw [abs_mul, abs_of_nonneg hZ0]; exact mul_le_mul hZ1 hg1 (abs_nonneg _) (by norm_num)
    obtain ⟨k1, k2⟩ := abs_le.mp k1
    rw [abs_le]
    constructor <;> (norm_num at *; linarith)
  · have hb := area_bound m E he hp
    unfold AreaLaw
    have hL : (p.y * w.z - p.z * w.y) ^ 2 + (p.z * w.x - p.x * w.z) ^ 2 + (p.x * w.y - p.y * w.x) ^ 2 =
        (m.rk E * m.rfdotk E) ^ 2 * (6378.137 ^ 2 / 60) ^ 2 := by
      have : (p.y * w.z - p.z * w.y) ^ 2 + (p.z * w.x - p.x * w.z) ^ 2 + (p.x * w.y - p.y * w.x) ^ 2 =
          (p.x ^ 2 + p.y ^ 2 + p.z ^ 2) * (w.x ^ 2 + w.y ^ 2 + w.z ^ 2) - (p.x * w.x + p.y * w.y + p.z * w.z) ^ 2 := by ring
      rw [this, l1, l2, l3, hR]; ring
    rw [hL]
    set Z := (m.rk E * m.rfdotk E) ^ 2 / (ke ^ 2 * (m.a * (1 - m.e ^ 2))) with hZ
    have hZ0 : 0 ≤ Z := by positivity
    have e1 : (m.rk E * m.rfdotk E) ^ 2 * (6378.137 ^ 2 / 60) ^ 2 / (398600.5 * (m.a * 6378.137 * (1 - m.e ^ 2))) = Z * (1 + g) := by
      have : Z * (1 + g) = Z * (398600.5 * (1 + g)) / 398600.5 := by ring
      rw [this, ← hg, hZ]; field_simp; norm_num
    rw [e1]
    obtain ⟨b1, b2⟩ := abs_le.mp hb
    have hZ1 : Z ≤ 1.02 := by norm_num at *; linarith
    have k1 : |Z * g| ≤ 1.02 * 1e-9 := by
      rw [abs_mul, abs_of_nonneg hZ0]; exact mul_le_mul hZ1 hg1 (abs_nonneg _) (by norm_num)
    obtain ⟨k1, k2⟩ := abs_le.mp k1
    rw [abs_le]
    constructor <;> (norm_num at *; linarith)

/-- **C86, C87**, near-earth satellites: the state returned for any time obeys the energy equation and the law of areas of the mean
orbit at that time. -/
theorem C86_energy_and_areas (s s' s'' : Satrec ℝ) (o : SGP4InitOptions ℝ) (r : Except SGP4Error (SGP4Result ℝ)) (t : ℝ)
    (v : SGP4Result ℝ) (h : sgp4init s o = some (s', r)) (he : 0 ≤ o.xecco ∧ o.xecco < 1) (hN : s'.method = .N)
    (ht : sgp4 s' t = some (s'', .ok v)) :
    let q : Orbit :=
      { n := recoveredMotion o.xno o.xecco o.xinclo, e := o.xecco, inc := o.xinclo, argp := o.xargpo, anom := o.xmo, bstar := o.xbstar }
    let m := q.mean o.xnodeo t
    m.e ≤ 1 / 2 → 1 ≤ m.a * (1 - m.e) →
      EnergyLaw v.position v.velocity (m.a * 6378.137) ∧ AreaLaw v.position v.velocity (m.a * 6378.137) m.e := by
  intro q m h2 h3
  obtain ⟨k, -, -, -, hk, hv⟩ := C64_near_earth_published s s' s'' o r t v h he hN ht
  exact laws_of_state m (m.newton k) ⟨le_max_of_le_right (by norm_num), h2⟩ h3 hk hv

open Classical in
/-- **C86, C87**, deep-space satellites: the same, for the mean elements carried forward by the deep-space theory. -/
theorem C86_energy_and_areas_deep (s s' s'' : Satrec ℝ) (o : SGP4InitOptions ℝ) (r : Except SGP4Error (SGP4Result ℝ)) (t : ℝ)
    (v : SGP4Result ℝ) (h : sgp4init s o = some (s', r)) (he : 0 ≤ o.xecco ∧ o.xecco < 1) (hD : s'.method = .D)
    (ht : sgp4 s' t = some (s'', .ok v)) :
    let q : Orbit :=
      { n := recoveredMotion o.xno o.xecco o.xinclo, e := o.xecco, inc := o.xinclo, argp := o.xargpo, anom := o.xmo, bstar := o.xbstar }
    let m := Spec.SDP.carriedMean q o.xnodeo (o.epoch + 18261.5) t
    0 ≤ m.e → m.e ≤ 1 / 2 → 1 ≤ m.a * (1 - m.e) →
      EnergyLaw v.position v.velocity (m.a * 6378.137) ∧ AreaLaw v.position v.velocity (m.a * 6378.137) m.e := by
  intro q m h1 h2 h3
  obtain ⟨k, -, -, -, hk⟩ := C62_deep_space_outcome s s' o r t h he hD
  rw [ht] at hk
  simp only [Option.map_some, Option.some.injEq] at hk
  split_ifs at hk
  cases hk
  exact laws_of_state m (m.newton k) ⟨h1, h2⟩ h3 rfl rfl

/-- **C86, C87** without drag: size and shape of the orbit never change, so at every time, however remote, the energy and the areal
velocity are those of the elements which were given. -/
theorem C86_conserved_without_drag (s s' s'' : Satrec ℝ) (o : SGP4InitOptions ℝ) (r : Except SGP4Error (SGP4Result ℝ)) (t : ℝ)
    (v : SGP4Result ℝ) (h : sgp4init s o = some (s', r)) (hb : o.xbstar = 0) (he : 1 / 10 ^ 6 ≤ o.xecco ∧ o.xecco ≤ 1 / 2)
    (hN : s'.method = .N) (hp : 1 ≤ (ke / recoveredMotion o.xno o.xecco o.xinclo) ^ (2 / 3 : ℝ) * (1 - o.xecco))
    (ht : sgp4 s' t = some (s'', .ok v)) :
    EnergyLaw v.position v.velocity ((ke / recoveredMotion o.xno o.xecco o.xinclo) ^ (2 / 3 : ℝ) * 6378.137) ∧
    AreaLaw v.position v.velocity ((ke / recoveredMotion o.xno o.xecco o.xinclo) ^ (2 / 3 : ℝ) * 6378.137) o.xecco := by
  have he0 : 0 ≤ o.xecco ∧ o.xecco < 1 := ⟨le_trans (by norm_num) he.1, lt_of_le_of_lt he.2 (by norm_num)⟩
  have := C86_energy_and_areas s s' s'' o r t v h he0 hN ht
  set q : Orbit := ⟨recoveredMotion o.xno o.xecco o.xinclo, o.xecco, o.xinclo, o.xargpo, o.xmo, o.xbstar⟩ with hq
  have hE : (q.mean o.xnodeo t).e = o.xecco := by
    show max (q.eRaw t) (1 / 10 ^ 6) = _
    rw [eRaw_noDrag hb]; exact max_eq_left he.1
  have hA : (q.mean o.xnodeo t).a = (ke / recoveredMotion o.xno o.xecco o.xinclo) ^ (2 / 3 : ℝ) := by
    show q.aT t = _
    rw [aT_noDrag hb]; rfl
  dsimp only at this
  rw [hE, hA] at this
  exact this he.2 hp

/-- C86, C87: a 100 min orbit without drag, at every time -/
example (s : Satrec ℝ) (t : ℝ) : ∃ s' r s'' v, sgp4init s (sampleSet 1.1 0.05 0) = some (s', r) ∧ sgp4 s' t = some (s'', .ok v) ∧
    EnergyLaw v.position v.velocity (1.1 ^ 2 * 6378.137) ∧ AreaLaw v.position v.velocity (1.1 ^ 2 * 6378.137) 0.05 := by
  obtain ⟨h1, h2⟩ := sample_near (b := 1.1) ⟨by norm_num, by norm_num⟩ 0.05 0
  obtain ⟨s', h⟩ := sgp4init_outcome s (sampleSet 1.1 0.05 0)
  have he : (1 : ℝ) / 10 ^ 6 ≤ 0.05 ∧ (0.05 : ℝ) ≤ 1 / 2 := by norm_num
  obtain ⟨s'', v, hv, -⟩ := C66_accepted_without_drag s s' (sampleSet 1.1 0.05 0) _ t h rfl he h1 h2
    (by rw [sample_motion, sample_axis (by norm_num)]; show (1.01 : ℝ) ≤ 1.1 ^ 2 * (1 - 0.05); norm_num)
  have hN := near_of_motion h (by show (0 : ℝ) ≤ 0.05 ∧ (0.05 : ℝ) < 1; norm_num) h2
  have := C86_conserved_without_drag s s' s'' (sampleSet 1.1 0.05 0) _ t v h rfl he hN
    (by rw [sample_motion, sample_axis (by norm_num)]; show (1 : ℝ) ≤ 1.1 ^ 2 * (1 - 0.05); norm_num) hv
  rw [sample_motion, sample_axis (by norm_num)] at this
  exact ⟨s', _, s'', v, h, hv, this⟩

end Sat
