import Verif.Props.EndToEnd
import Mathlib.Topology.Order.IntermediateValue
/-!
# The Kepler iteration converges for moderate eccentricities: C65

Exact arithmetic.
-/

namespace Sat
open Spec.R3

/-- Cauchy's inequality in the plane -/
theorem plane_cauchy {x y p q e d : ℝ} (h : x ^ 2 + y ^ 2 ≤ e ^ 2) (he : 0 ≤ e) (hp : p ^ 2 + q ^ 2 ≤ d ^ 2) (hd : 0 ≤ d) :
    |x * p - y * q| ≤ e * d := by
  refine abs_le_of_sq_le_sq ?_ (mul_nonneg he hd)
  have h1 : (x * p - y * q) ^ 2 ≤ (x ^ 2 + y ^ 2) * (p ^ 2 + q ^ 2) := by nlinarith [sq_nonneg (x * q + y * p)]
  calc _ ≤ (x ^ 2 + y ^ 2) * (p ^ 2 + q ^ 2) := h1
    _ ≤ e ^ 2 * d ^ 2 := mul_le_mul h hp (by positivity) (by positivity)
    _ = (e * d) ^ 2 := by ring

/-- a chord of the unit circle is not longer than its arc -/
theorem chord_le_arc (a b : ℝ) : (Real.sin a - Real.sin b) ^ 2 + (Real.cos a - Real.cos b) ^ 2 ≤ |a - b| ^ 2 := by
  have h : (Real.sin a - Real.sin b) ^ 2 + (Real.cos a - Real.cos b) ^ 2 = 2 - 2 * Real.cos (a - b) := by
    rw [Real.cos_sub]
    linear_combination Real.sin_sq_add_cos_sq a + Real.sin_sq_add_cos_sq b
  rw [h, sq_abs]
  linarith [Real.one_sub_sq_div_two_le_cos (x := a - b)]

variable {m : Mean} {e : ℝ}

/-- the residual of Kepler's equation separates points -/
theorem kepler_separates (h : m.eL2 ≤ e ^ 2) (he : 0 ≤ e) (E E' : ℝ) :
    (1 - e) * |E - E'| ≤ |m.kepler E - m.kepler E'| := by
  have h1 := plane_cauchy h he (chord_le_arc E E') (abs_nonneg _)
  have h2 : E - E' = (m.axN * (Real.sin E - Real.sin E') - m.ayN * (Real.cos E - Real.cos E')) - (m.kepler E - m.kepler E') := by
    unfold Mean.kepler; ring
  have h3 : |E - E'| ≤ |m.axN * (Real.sin E - Real.sin E') - m.ayN * (Real.cos E - Real.cos E')| + |m.kepler E - m.kepler E'| := by
    conv_lhs => rw [h2]
    exact abs_sub _ _
  linarith

theorem newton_denominator (h : m.eL2 ≤ e ^ 2) (he : 0 ≤ e) (E : ℝ) :
    1 - e ≤ 1 - m.axN * Real.cos E - m.ayN * Real.sin E ∧ 1 - m.axN * Real.cos E - m.ayN * Real.sin E ≤ 1 + e := by
  have h1 : |m.axN * Real.cos E - m.ayN * (-Real.sin E)| ≤ e * 1 :=
    plane_cauchy h he (by nlinarith [Real.sin_sq_add_cos_sq E]) zero_le_one
  have h2 := abs_le.mp h1
  constructor <;> linarith [h2.1, h2.2]

/-- an unclamped correction reduces the residual quadratically -/
theorem kepler_step (h : m.eL2 ≤ e ^ 2) (he : 0 ≤ e) (he1 : e < 1) (E : ℝ) (hc : |m.kepler E| < 0.95 * (1 - e)) :
    (1 - e) * |m.correction E| ≤ |m.kepler E| ∧ |m.kepler E| ≤ (1 + e) * |m.correction E| ∧
    |m.kepler (E + m.correction E)| ≤ e / 2 * |m.correction E| ^ 2 := by
  obtain ⟨d1, d2⟩ := newton_denominator h he E
  set D := 1 - m.axN * Real.cos E - m.ayN * Real.sin E with hD
  have hD0 : 0 < D := by linarith
  have hq : |m.kepler E / D| < 0.95 := by
    rw [abs_div, abs_of_pos hD0, div_lt_iff₀ hD0]
    calc _ < 0.95 * (1 - e) := hc
      _ ≤ _ := by gcongr
  have hcorr : m.correction E = m.kepler E / D := by
    unfold Mean.correction
    dsimp only
    rw [← hD]
    obtain ⟨q1, q2⟩ := abs_lt.mp hq
    rw [if_neg (not_le.mpr q2), if_neg (not_le.mpr q1)]
  have hm : |m.kepler E| = D * |m.correction E| := by
    rw [hcorr, abs_div, abs_of_pos hD0]; field_simp
  refine ⟨?_, ?_, ?_⟩
  · rw [hm]; gcongr
  · rw [hm]; gcongr
  · set δ := m.correction E with hδ
    have hδ' : δ * D = m.kepler E := by rw [hcorr]; field_simp
    set P := Real.sin E * (Real.cos δ - 1) + Real.cos E * (Real.sin δ - δ) with hP
    set Q := Real.cos E * (Real.cos δ - 1) - Real.sin E * (Real.sin δ - δ) with hQ
    have hres : m.kepler (E + δ) = m.axN * P - m.ayN * Q := by
      unfold Mean.kepler at hδ' ⊢
      rw [Real.sin_add, Real.cos_add, hP, hQ]
      rw [hD] at hδ'
      linear_combination -hδ'
    have hPQ : P ^ 2 + Q ^ 2 ≤ (δ ^ 2 / 2) ^ 2 := by
      have h0 := cis_remainder δ
      have h1 := Real.sin_sq_add_cos_sq E
      have : P ^ 2 + Q ^ 2 = (Real.cos δ - 1) ^ 2 + (Real.sin δ - δ) ^ 2 := by
        rw [hP, hQ]; linear_combination ((Real.cos δ - 1) ^ 2 + (Real.sin δ - δ) ^ 2) * h1
      linarith
    rw [hres, sq_abs]
    calc _ ≤ e * (δ ^ 2 / 2) := plane_cauchy h he hPQ (by positivity)
      _ = _ := by ring

/-- one Newton step, numerically, for eccentricities up to 0.45 -/
theorem step_bound (h : m.eL2 ≤ (9 / 20) ^ 2) {E b : ℝ} (hf : |m.kepler E| ≤ b) (hb : b ≤ 9 / 20) :
    |m.correction E| ≤ 20 / 11 * b ∧ |m.kepler (E + m.correction E)| ≤ 9 / 40 * (20 / 11 * b) ^ 2 := by
  obtain ⟨h1, -, h3⟩ := kepler_step h (by norm_num) (by norm_num) E (by
    calc _ ≤ 9 / 20 := hf.trans hb
      _ < _ := by norm_num)
  have hc : |m.correction E| ≤ 20 / 11 * b := by linarith
  refine ⟨hc, h3.trans ?_⟩
  have : |m.correction E| ^ 2 ≤ (20 / 11 * b) ^ 2 := by gcongr
  linarith

/-- **C65.** For orbits whose eccentricity (with long-period terms) is at most 0.45 the Kepler iteration always converges: at most six
approximations are used, and the one used lies within 3e-12 of every solution of Kepler's equation. -/
theorem C65_kepler_converges (m : Mean) (he : m.eL2 ≤ 0.45 ^ 2) (k : ℕ) (hk : ∀ j < k, 1e-12 ≤ |m.correction (m.newton j)|)
    (hk9 : k = 9 ∨ |m.correction (m.newton k)| < 1e-12) :
    k ≤ 5 ∧ |m.kepler (m.newton k)| ≤ 1.45e-12 ∧ ∀ E, m.kepler E = 0 → |m.newton k - E| ≤ 3e-12 := by
  have h : m.eL2 ≤ (9 / 20) ^ 2 := by norm_num at he ⊢; exact he
  have f0 : |m.kepler (m.newton 0)| ≤ 9 / 20 := by
    have e0 : m.kepler (m.newton 0) = m.axN * Real.sin m.U - m.ayN * Real.cos m.U := by
      show m.kepler m.U = _; unfold Mean.kepler; ring
    rw [e0]
    calc _ ≤ 9 / 20 * 1 := plane_cauchy h (by norm_num) (by nlinarith [Real.sin_sq_add_cos_sq m.U]) zero_le_one
      _ = _ := by ring
  have mono : ∀ {i : ℕ} {b c : ℝ}, |m.kepler (m.newton i)| ≤ b → b ≤ 9 / 20 → 9 / 40 * (20 / 11 * b) ^ 2 ≤ c →
      |m.kepler (m.newton (i + 1))| ≤ c := fun hf hb hc => (step_bound h hf hb).2.trans hc
  have f1 : |m.kepler (m.newton 1)| ≤ 0.151 := mono f0 (by norm_num) (by norm_num)
  have f2 : |m.kepler (m.newton 2)| ≤ 0.017 := mono f1 (by norm_num) (by norm_num)
  have f3 : |m.kepler (m.newton 3)| ≤ 0.00022 := mono f2 (by norm_num) (by norm_num)
  have f4 : |m.kepler (m.newton 4)| ≤ 4e-8 := mono f3 (by norm_num) (by norm_num)
  have f5 : |m.kepler (m.newton 5)| ≤ 2e-15 := mono f4 (by norm_num) (by norm_num)
  have c5 : |m.correction (m.newton 5)| < 1e-12 := by
    have := (step_bound h f5 (by norm_num)).1
    calc _ ≤ _ := this
      _ < _ := by norm_num
  have k5 : k ≤ 5 := by
    by_contra hc
    exact absurd (hk 5 (by omega)) (not_le.mpr c5)
  have hfk : |m.kepler (m.newton k)| ≤ 9 / 20 := by
    interval_cases k
    · exact f0
    · exact f1.trans (by norm_num)
    · exact f2.trans (by norm_num)
    · exact f3.trans (by norm_num)
    · exact f4.trans (by norm_num)
    · exact f5.trans (by norm_num)
  have hck : |m.correction (m.newton k)| < 1e-12 := by
    rcases hk9 with h9 | h9
    · omega
    · exact h9
  obtain ⟨-, s2, -⟩ := kepler_step h (by norm_num) (by norm_num) (m.newton k) (by
    calc _ ≤ 9 / 20 := hfk
      _ < _ := by norm_num)
  have hres : |m.kepler (m.newton k)| ≤ 1.45e-12 := by
    calc _ ≤ _ := s2
      _ ≤ (1 + 9 / 20) * 1e-12 := by gcongr
      _ = _ := by norm_num
  refine ⟨k5, hres, ?_⟩
  intro E hE
  have := kepler_separates h (by norm_num) (m.newton k) E
  rw [hE, sub_zero] at this
  have h2 : (1 - 9 / 20 : ℝ) * |m.newton k - E| ≤ 1.45e-12 := this.trans hres
  norm_num at h2 ⊢
  linarith

/-- Kepler's equation has a solution, within one radian of the first approximation. -/
theorem kepler_solution (h : m.eL2 ≤ e ^ 2) (he : 0 ≤ e) (he1 : e < 1) : ∃ E, m.kepler E = 0 ∧ |m.U - E| ≤ 1 := by
  have hb : ∀ x, |m.axN * Real.sin x - m.ayN * Real.cos x| ≤ e * 1 := fun x =>
    plane_cauchy h he (by nlinarith [Real.sin_sq_add_cos_sq x]) zero_le_one
  have hcont : ContinuousOn m.kepler (Set.Icc (m.U - 1) (m.U + 1)) := by
    apply Continuous.continuousOn
    unfold Mean.kepler; fun_prop
  have h1 : 0 ≤ m.kepler (m.U - 1) := by
    have := (abs_le.mp (hb (m.U - 1))).1
    unfold Mean.kepler; linarith
  have h2 : m.kepler (m.U + 1) ≤ 0 := by
    have := (abs_le.mp (hb (m.U + 1))).2
    unfold Mean.kepler; linarith
  obtain ⟨E, hE, h0⟩ := intermediate_value_Icc' (by linarith : m.U - 1 ≤ m.U + 1) hcont ⟨h2, h1⟩
  exact ⟨E, h0, by rw [abs_le]; constructor <;> linarith [hE.1, hE.2]⟩

/-- **C65** for the propagator: for an initialised near-earth record and a time at which the eccentricity (with long-period terms) is at
most 0.45, Kepler's equation has exactly one solution, and the position and velocity returned are the published ones at an eccentric
longitude within 3e-12 of it. -/
theorem C65_near_earth_solution (s s' s'' : Satrec ℝ) (o : SGP4InitOptions ℝ) (r : Except SGP4Error (SGP4Result ℝ)) (t : ℝ)
    (v : SGP4Result ℝ) (h : sgp4init s o = some (s', r)) (he : 0 ≤ o.xecco ∧ o.xecco < 1) (hN : s'.method = .N)
    (ht : sgp4 s' t = some (s'', .ok v)) :
    let q : Orbit :=
      { n := recoveredMotion o.xno o.xecco o.xinclo, e := o.xecco, inc := o.xinclo, argp := o.xargpo, anom := o.xmo, bstar := o.xbstar }
    let m := q.mean o.xnodeo t
    m.eL2 ≤ 0.45 ^ 2 → ∃ E E₀, m.kepler E₀ = 0 ∧ (∀ E', m.kepler E' = 0 → E' = E₀) ∧ |E - E₀| ≤ 3e-12 ∧
      v.position = vec (m.positionKm E) ∧ v.velocity = vec (m.velocityKmS E) := by
  intro q m hm
  obtain ⟨k, -, k2, k3, kp, kv⟩ := C64_near_earth_published s s' s'' o r t v h he hN ht
  obtain ⟨-, -, h3⟩ := C65_kepler_converges m hm k k2 k3
  obtain ⟨E₀, h0, -⟩ := kepler_solution hm (by norm_num) (by norm_num)
  refine ⟨m.newton k, E₀, h0, ?_, h3 E₀ h0, kp, kv⟩
  intro E' hE'
  have := kepler_separates hm (by norm_num) E' E₀
  rw [hE', h0, sub_zero, abs_zero] at this
  have h5 : |E' - E₀| ≤ 0 := by
    by_contra hc
    have : (0:ℝ) < (1 - 0.45) * |E' - E₀| := mul_pos (by norm_num) (not_le.mp hc)
    linarith
  exact sub_eq_zero.mp (abs_nonpos_iff.mp h5)

end Sat
