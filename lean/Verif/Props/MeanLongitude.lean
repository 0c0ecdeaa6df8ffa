import Verif.Props.Kepler
import Verif.Props.Motion
/-!
# The direction of a satellite in a nearly circular, nearly equatorial orbit

The position given by the theory for mean elements with a small eccentricity and a small inclination points, seen from the pole, to the mean
longitude, up to twice the eccentricity and a milliradian.
-/

namespace Sat
open Spec Spec.R3

/-- the unit vector at the angle `a` -/
noncomputable def dir (a : ℝ) : ℂ := ⟨Real.cos a, Real.sin a⟩

theorem dir_norm (a : ℝ) : ‖dir a‖ = 1 := by
  rw [Complex.norm_def, dir, Complex.normSq_mk, show Real.cos a * Real.cos a + Real.sin a * Real.sin a = 1 by nlinarith [Real.sin_sq_add_cos_sq a], Real.sqrt_one]

theorem dir_add (a b : ℝ) : dir (a + b) = dir a * dir b := by
  unfold dir
  apply Complex.ext
  · simp only [Complex.mul_re, Real.cos_add]
  · simp only [Complex.mul_im, Real.sin_add]; ring

theorem dir_sub_le (a b : ℝ) : ‖dir a - dir b‖ ≤ |a - b| := by
  have h := chord_le_arc a b
  rw [Complex.norm_def]
  refine Real.sqrt_le_iff.mpr ⟨abs_nonneg _, ?_⟩
  rw [Complex.normSq_apply]
  simp only [dir, Complex.sub_re, Complex.sub_im]
  nlinarith

/-- a vector near a multiple of `dir b` has nearly the angle `b` -/
theorem angle_of_near {R ρ D x b : ℝ} (hR : 0 ≤ R) (hρ : 0 < ρ) (hD : D < 1) (h : ‖(R : ℂ) * dir x - (ρ : ℂ) * dir b‖ ≤ D * ρ) :
    ρ * (1 - D) ≤ R ∧ ∃ k : ℤ, |x - (b + k * (2 * Real.pi))| ≤ D / (1 - D) := by
  have hb : dir b * dir (-b) = 1 := by
    rw [← dir_add]
    unfold dir
    apply Complex.ext <;> simp
  have e : ((R : ℂ) * dir x - (ρ : ℂ) * dir b) * dir (-b) = (R : ℂ) * dir (x - b) - ρ := by
    rw [sub_eq_add_neg x b, dir_add]
    linear_combination -(ρ : ℂ) * hb
  have h1 : ‖(R : ℂ) * dir (x - b) - ρ‖ ≤ D * ρ := by rw [← e, norm_mul, dir_norm, mul_one]; exact h
  have hre := (Complex.abs_re_le_norm _).trans h1
  have him := (Complex.abs_im_le_norm _).trans h1
  simp only [dir, Complex.sub_re, Complex.sub_im, Complex.mul_re, Complex.mul_im, Complex.ofReal_re, Complex.ofReal_im, zero_mul, sub_zero, add_zero] at hre him
  set y := x - b with hy
  have hc : ρ * (1 - D) ≤ R * Real.cos y := by linarith [(abs_le.mp hre).1]
  have hc0 : 0 < R * Real.cos y := lt_of_lt_of_le (mul_pos hρ (by linarith)) hc
  refine ⟨hc.trans (mul_le_of_le_one_right hR (Real.cos_le_one _)), round (y / (2 * Real.pi)), ?_⟩
  set k := round (y / (2 * Real.pi)) with hk
  set z := y - k * (2 * Real.pi) with hz
  have hpi := Real.pi_pos
  have cz : Real.cos z = Real.cos y := Real.cos_sub_int_mul_two_pi y k
  have sz : Real.sin z = Real.sin y := Real.sin_sub_int_mul_two_pi y k
  have hz1 : |z| ≤ Real.pi := by
    have := abs_sub_round (y / (2 * Real.pi))
    rw [← hk] at this
    have e : z = (y / (2 * Real.pi) - k) * (2 * Real.pi) := by rw [hz]; field_simp
    rw [e, abs_mul, abs_of_pos (by positivity : 0 < 2 * Real.pi)]
    nlinarith
  rw [← cz] at hc hc0
  rw [← sz] at him
  have hRp : 0 < R := by
    rcases hR.eq_or_lt with h0 | h0
    · rw [← h0, zero_mul] at hc0; exact absurd hc0 (lt_irrefl _)
    · exact h0
  have hcz : 0 < Real.cos z := by
    by_contra hcon
    exact absurd hc0 (not_lt.mpr (mul_nonpos_of_nonneg_of_nonpos hR (not_lt.mp hcon)))
  have hz2 : |z| < Real.pi / 2 := by
    by_contra hcon
    rw [not_lt] at hcon
    have := Real.cos_nonpos_of_pi_div_two_le_of_le hcon (by linarith)
    rw [Real.cos_abs] at this
    linarith
  have ht : |z| ≤ Real.tan |z| := Real.le_tan (abs_nonneg _) hz2
  have e1 : x - (b + k * (2 * Real.pi)) = z := by rw [hz, hy]; ring
  rw [e1]
  refine ht.trans ?_
  rw [Real.tan_eq_sin_div_cos, Real.cos_abs, div_le_div_iff₀ hcz (by linarith)]
  have hs : Real.sin |z| ≤ |Real.sin z| := by
    rcases abs_cases z with ⟨h, -⟩ | ⟨h, -⟩ <;> rw [h]
    · exact le_abs_self _
    · rw [Real.sin_neg]; exact neg_le_abs _
  rw [abs_mul, abs_of_nonneg hR] at him
  have hD0 : 0 ≤ D * ρ := (mul_nonneg hR (abs_nonneg _)).trans him
  have h5 : R * (Real.sin |z| * (1 - D)) * ρ ≤ R * (D * Real.cos z) * ρ := by
    calc R * (Real.sin |z| * (1 - D)) * ρ ≤ R * (|Real.sin z| * (1 - D)) * ρ := by
          gcongr
      _ = (R * |Real.sin z|) * (ρ * (1 - D)) := by ring
      _ ≤ (D * ρ) * (R * Real.cos z) := mul_le_mul him hc (mul_nonneg hρ.le (by linarith)) hD0
      _ = _ := by ring
  have h6 := le_of_mul_le_mul_right h5 hρ
  exact le_of_mul_le_mul_left h6 hRp

/-! ## The periodics -/


section
variable {m : Mean} {η : ℝ}

theorem esinE_le (h : m.eL2 ≤ η ^ 2) (hη : 0 ≤ η) (E : ℝ) : |m.esinE E| ≤ η := by
  have := plane_cauchy (p := Real.sin E) (q := Real.cos E) h hη (d := 1) (by nlinarith [Real.sin_sq_add_cos_sq E]) zero_le_one
  rw [mul_one] at this
  exact this

theorem ecosE_le (h : m.eL2 ≤ η ^ 2) (hη : 0 ≤ η) (E : ℝ) : |m.ecosE E| ≤ η := by
  have := plane_cauchy (p := Real.cos E) (q := -Real.sin E) h hη (d := 1) (by nlinarith [Real.sin_sq_add_cos_sq E]) zero_le_one
  rw [mul_one, mul_neg, sub_neg_eq_add] at this
  exact this

theorem axN_abs (h : m.eL2 ≤ η ^ 2) (hη : 0 ≤ η) : |m.axN| ≤ η := abs_le_of_sq_le_sq (by unfold Mean.eL2 at h; nlinarith [sq_nonneg m.ayN]) hη
theorem ayN_abs (h : m.eL2 ≤ η ^ 2) (hη : 0 ≤ η) : |m.ayN| ≤ η := abs_le_of_sq_le_sq (by unfold Mean.eL2 at h; nlinarith [sq_nonneg m.axN]) hη

/-- the argument of latitude is near the eccentric longitude -/
theorem u_near_E (h : m.eL2 ≤ η ^ 2) (hη : 0 ≤ η) (hη1 : η < 1) (ha : 0 < m.a) (E : ℝ) :
    ‖dir (m.u E) - dir E‖ ≤ (η + η ^ 2) / (1 - η) := by
  have hec := ecosE_le h hη E
  have hes := esinE_le h hη E
  have hd : 0 < 1 - m.ecosE E := by linarith [(abs_le.mp hec).2]
  have hr : m.r E ≠ 0 := (mul_pos ha hd).ne'
  have he1 : m.eL2 ≤ 1 := h.trans (by nlinarith)
  obtain ⟨u1, u2⟩ := cos_u_sin_u m E hr he1
  have har : m.a / m.r E = 1 / (1 - m.ecosE E) := by unfold Mean.r; field_simp
  set S := Real.sqrt (1 - m.eL2) with hS
  have hS0 : 0 ≤ S := Real.sqrt_nonneg _
  have e1 : dir (m.u E) - dir E = ((m.esinE E / (1 - m.ecosE E) : ℝ) : ℂ) * (⟨-Real.sin E + m.ayN / (1 + S), Real.cos E - m.axN / (1 + S)⟩ : ℂ) := by
    unfold dir
    rw [u1, u2]
    apply Complex.ext
    · simp only [Complex.sub_re, Complex.mul_re, Complex.ofReal_re, Complex.ofReal_im, zero_mul, sub_zero]
      unfold Mean.cosu
      rw [har, ← hS]
      field_simp
      unfold Mean.ecosE Mean.esinE
      linear_combination (1 + S) * m.axN * Real.sin_sq_add_cos_sq E
    · simp only [Complex.sub_im, Complex.mul_im, Complex.ofReal_re, Complex.ofReal_im, zero_mul, add_zero]
      unfold Mean.sinu
      rw [har, ← hS]
      field_simp
      unfold Mean.ecosE Mean.esinE
      linear_combination (1 + S) * m.ayN * Real.sin_sq_add_cos_sq E
  rw [e1, norm_mul, Complex.norm_real, Real.norm_eq_abs, abs_div, abs_of_pos hd]
  have h2 : ‖(⟨-Real.sin E + m.ayN / (1 + S), Real.cos E - m.axN / (1 + S)⟩ : ℂ)‖ ≤ 1 + η := by
    have e2 : (⟨-Real.sin E + m.ayN / (1 + S), Real.cos E - m.axN / (1 + S)⟩ : ℂ) = dir (E + Real.pi / 2) + ((1 / (1 + S) : ℝ) : ℂ) * ⟨m.ayN, -m.axN⟩ := by
      unfold dir
      rw [Real.cos_add_pi_div_two, Real.sin_add_pi_div_two]
      apply Complex.ext
      · simp only [Complex.add_re, Complex.mul_re, Complex.ofReal_re, Complex.ofReal_im, zero_mul, sub_zero]; ring
      · simp only [Complex.add_im, Complex.mul_im, Complex.ofReal_re, Complex.ofReal_im, zero_mul, add_zero]; ring
    rw [e2]
    refine (norm_add_le _ _).trans (add_le_add (dir_norm _).le ?_)
    rw [norm_mul, Complex.norm_real, Real.norm_eq_abs, abs_of_pos (by positivity)]
    have h3 : ‖(⟨m.ayN, -m.axN⟩ : ℂ)‖ ≤ η := by
      rw [Complex.norm_def]
      refine Real.sqrt_le_iff.mpr ⟨hη, ?_⟩
      rw [Complex.normSq_mk]
      unfold Mean.eL2 at h
      nlinarith
    calc 1 / (1 + S) * ‖(⟨m.ayN, -m.axN⟩ : ℂ)‖ ≤ 1 * η := mul_le_mul (by rw [div_le_one (by linarith)]; linarith) h3 (norm_nonneg _) zero_le_one
      _ = η := one_mul _
  calc _ ≤ η / (1 - η) * (1 + η) := by
        refine mul_le_mul (div_le_div₀ hη hes (by linarith) (by linarith [(abs_le.mp hec).2])) h2 (norm_nonneg _) (div_nonneg hη (by linarith))
    _ = _ := by ring

/-- the direction in the plane of the equator, from the pole -/
theorem Uvec_dir (m : Mean) (E : ℝ) : (⟨m.Uvec E 0, m.Uvec E 1⟩ : ℂ) = dir (m.Ωk E) * ⟨Real.cos (m.uk E), Real.cos (m.ik E) * Real.sin (m.uk E)⟩ := by
  unfold dir
  apply Complex.ext
  · show -Real.sin (m.Ωk E) * Real.cos (m.ik E) * Real.sin (m.uk E) + Real.cos (m.Ωk E) * Real.cos (m.uk E) = _
    simp only [Complex.mul_re]; ring
  · show Real.cos (m.Ωk E) * Real.cos (m.ik E) * Real.sin (m.uk E) + Real.sin (m.Ωk E) * Real.cos (m.uk E) = _
    simp only [Complex.mul_im]; ring

/-- The mean elements of a nearly circular, nearly equatorial orbit. -/
structure Flat (m : Mean) : Prop where
  a : 1.91 ≤ m.a
  e0 : 0 ≤ m.e
  e1 : m.e ≤ 0.0104
  i : |m.i| ≤ 0.036

theorem Flat.p (h : Flat m) : 1.909 ≤ m.a * (1 - m.e ^ 2) := by
  have := h.a
  have h2 : m.e ^ 2 ≤ 0.00011 := by nlinarith [h.e0, h.e1]
  nlinarith

theorem sin_small (h : |m.i| ≤ 0.036) : |Real.sin m.i| ≤ 0.036 := Real.abs_sin_le_abs.trans h

theorem cos_big (h : |m.i| ≤ 0.036) : 0.999 ≤ Real.cos m.i := by
  have h1 := Real.one_sub_sq_div_two_le_cos (x := m.i)
  have h2 : m.i ^ 2 ≤ 0.036 ^ 2 := sq_le_sq' (abs_le.mp h).1 (abs_le.mp h).2
  norm_num at *; linarith

theorem longAy_le (h : |m.i| ≤ 0.036) : |longAy m.i| ≤ 0.000043 := by
  have hs := sin_small h
  have e : longAy m.i = a30 / (4 * R3.k2) * Real.sin m.i := by unfold longAy; ring
  rw [e, abs_mul]
  have h1 : |a30 / (4 * R3.k2)| ≤ 0.00117 := by
    unfold a30 R3.k2 j2 j3
    rw [abs_of_pos (by norm_num)]; norm_num
  calc _ ≤ (0.00117 : ℝ) * 0.036 := mul_le_mul h1 hs (abs_nonneg _) (by norm_num)
    _ ≤ _ := by norm_num

theorem longL_le (h : |m.i| ≤ 0.036) : |longL m.i| ≤ 0.0001 := by
  have hs := sin_small h
  have hc := cos_big h
  have hc1 := Real.cos_le_one m.i
  have e : longL m.i = a30 / (8 * R3.k2) * Real.sin m.i * ((3 + 5 * Real.cos m.i) / max (1 + Real.cos m.i) (1.5 / 10 ^ 12)) := by unfold longL; ring
  rw [e, abs_mul, abs_mul, max_eq_left (by norm_num at *; linarith)]
  have h1 : |a30 / (8 * R3.k2)| ≤ 0.000586 := by
    unfold a30 R3.k2 j2 j3
    rw [abs_of_pos (by norm_num)]; norm_num
  have h2 : |(3 + 5 * Real.cos m.i) / (1 + Real.cos m.i)| ≤ 4.1 := by
    rw [abs_of_pos (div_pos (by linarith) (by linarith)), div_le_iff₀ (by linarith)]
    linarith
  calc _ ≤ (0.000586 : ℝ) * 0.036 * 4.1 := mul_le_mul (mul_le_mul h1 hs (abs_nonneg _) (by norm_num)) h2 (abs_nonneg _) (by norm_num)
    _ ≤ _ := by norm_num

/-- long-period terms add little to the eccentricity -/
theorem Flat.eL2 (h : Flat m) : m.eL2 ≤ (m.e + 0.00003) ^ 2 := by
  have hp := h.p
  have h1 : |longAy m.i / (m.a * (1 - m.e ^ 2))| ≤ 0.00003 := by
    rw [abs_div, abs_of_pos (by linarith : 0 < m.a * (1 - m.e ^ 2)), div_le_iff₀ (by linarith)]
    exact (longAy_le h.i).trans (by linarith)
  unfold Mean.eL2 Mean.axN Mean.ayN
  set g := longAy m.i / (m.a * (1 - m.e ^ 2))
  obtain ⟨g1, g2⟩ := abs_le.mp h1
  have e : (m.e * Real.cos m.ω) ^ 2 + (m.e * Real.sin m.ω + g) ^ 2 = m.e ^ 2 + 2 * m.e * (g * Real.sin m.ω) + g ^ 2 := by
    linear_combination m.e ^ 2 * Real.sin_sq_add_cos_sq m.ω
  rw [e]
  have h2 : g * Real.sin m.ω ≤ 0.00003 := by
    refine (le_abs_self _).trans ?_
    rw [abs_mul]
    calc _ ≤ (0.00003 : ℝ) * 1 := mul_le_mul h1 (Real.abs_sin_le_one _) (abs_nonneg _) (by norm_num)
      _ = _ := mul_one _
  have h3 : g ^ 2 ≤ 0.00003 ^ 2 := sq_le_sq' g1 g2
  nlinarith [h.e0, mul_le_mul_of_nonneg_left h2 h.e0]

theorem Flat.pL (h : Flat m) : 1.909 ≤ m.pL := by
  have h2 := h.eL2
  have h3 : m.eL2 ≤ 0.00011 := h2.trans (by nlinarith [h.e0, h.e1])
  have := h.a
  unfold Mean.pL
  nlinarith

theorem Flat.κ (h : Flat m) : 0 < R3.k2 / m.pL ^ 2 ∧ R3.k2 / m.pL ^ 2 ≤ 0.0001486 := by
  have hp := h.pL
  have hp2 : 3.644 ≤ m.pL ^ 2 := by nlinarith
  have hk : 0 < R3.k2 := by unfold R3.k2 j2; norm_num
  refine ⟨by positivity, ?_⟩
  rw [div_le_iff₀ (by linarith)]
  unfold R3.k2 j2; norm_num at *; linarith

theorem Flat.sin2u (h : Flat m) (E : ℝ) : |m.sin2u E| ≤ 1 ∧ |m.cos2u E| ≤ 1 := by
  have h2 := h.eL2
  have he1 : m.eL2 ≤ 1 := h2.trans (by nlinarith [h.e0, h.e1])
  have ha := h.a
  have hec := ecosE_le h2 (by linarith [h.e0]) E
  have hd : 0 < 1 - m.ecosE E := by linarith [(abs_le.mp hec).2, h.e1]
  have hr : m.r E ≠ 0 := (mul_pos (by linarith) hd).ne'
  obtain ⟨u1, u2⟩ := cos_u_sin_u m E hr he1
  unfold Mean.sin2u Mean.cos2u
  rw [← u1, ← u2]
  have := Real.sin_sq_add_cos_sq (m.u E)
  constructor
  · rw [abs_le]; constructor <;> nlinarith [sq_nonneg (Real.sin (m.u E) + Real.cos (m.u E)), sq_nonneg (Real.sin (m.u E) - Real.cos (m.u E))]
  · rw [abs_le]; constructor <;> nlinarith [sq_nonneg (Real.sin (m.u E)), sq_nonneg (Real.cos (m.u E))]

theorem Flat.rk_ge (h : Flat m) (E : ℝ) : 1.7 ≤ m.rk E := by
  obtain ⟨k0, k1⟩ := h.κ
  have h2 := h.eL2
  have ha := h.a
  have hp := h.pL
  have hec := (abs_le.mp (ecosE_le h2 (by linarith [h.e0]) E)).2
  have hr : 1.8 ≤ m.r E := by unfold Mean.r; nlinarith [h.e1]
  have hc := (abs_le.mp (h.sin2u E).2)
  have hθ : m.θ ^ 2 ≤ 1 := Real.cos_sq_le_one _
  have hθ0 : 0.99 ≤ m.θ ^ 2 := by have := cos_big h.i; show 0.99 ≤ Real.cos m.i ^ 2; nlinarith
  have hS1 : Real.sqrt (1 - m.eL2) ≤ 1 := by
    refine Real.sqrt_le_iff.mpr ⟨zero_le_one, ?_⟩
    have : 0 ≤ m.eL2 := by unfold Mean.eL2; positivity
    linarith
  have hS0 := Real.sqrt_nonneg (1 - m.eL2)
  have e : m.rk E = m.r E * (1 - 3 / 2 * (R3.k2 / m.pL ^ 2) * Real.sqrt (1 - m.eL2) * (3 * m.θ ^ 2 - 1)) +
      R3.k2 / m.pL ^ 2 * m.pL / 2 * (1 - m.θ ^ 2) * m.cos2u E := by
    unfold Mean.rk; field_simp
  have ek : R3.k2 / m.pL ^ 2 * m.pL = R3.k2 / m.pL := by field_simp
  have hk3 : R3.k2 / m.pL ≤ 0.001 := by
    rw [div_le_iff₀ (by linarith)]; unfold R3.k2 j2; norm_num at *; linarith
  have hk4 : 0 ≤ R3.k2 / m.pL := by rw [← ek]; nlinarith
  rw [e, ek]
  have t1 : 3 / 2 * (R3.k2 / m.pL ^ 2) * Real.sqrt (1 - m.eL2) * (3 * m.θ ^ 2 - 1) ≤ 0.001 := by
    calc _ ≤ 3 / 2 * 0.0001486 * 1 * (2 : ℝ) := by gcongr <;> linarith
      _ ≤ _ := by norm_num
  have t2 : |R3.k2 / m.pL / 2 * (1 - m.θ ^ 2) * m.cos2u E| ≤ 0.001 := by
    rw [abs_mul, abs_of_nonneg (mul_nonneg (by linarith) (by linarith))]
    calc _ ≤ 0.001 / 2 * 1 * (1 : ℝ) := by gcongr; linarith; exact (h.sin2u E).2
      _ ≤ _ := by norm_num
  have := (abs_le.mp t2).1
  nlinarith

theorem Flat.rk_pos (h : Flat m) (E : ℝ) : 0 < m.rk E := lt_of_lt_of_le (by norm_num) (h.rk_ge E)

/-- the direction is the mean longitude, up to twice the eccentricity -/
theorem Flat.direction (h : Flat m) {E : ℝ} (hE : |m.kepler E| ≤ 1 / 10 ^ 6) :
    ‖(⟨m.Uvec E 0, m.Uvec E 1⟩ : ℂ) - dir m.L‖ ≤ 2.022 * m.e + 0.0012 := by
  obtain ⟨k0, k1⟩ := h.κ
  have h2 := h.eL2
  have hη : 0 ≤ m.e + 0.00003 := by linarith [h.e0]
  have ha := h.a
  obtain ⟨s1, s2⟩ := h.sin2u E
  have hθ0 : 0.99 ≤ m.θ ^ 2 := by have := cos_big h.i; show 0.99 ≤ Real.cos m.i ^ 2; nlinarith
  have hθ1 : m.θ ^ 2 ≤ 1 := Real.cos_sq_le_one _
  have hθ : |m.θ| ≤ 1 := Real.abs_cos_le_one _
  -- the periodics
  have dΩ : |m.Ωk E - m.Ω| ≤ 0.000224 := by
    have e : m.Ωk E - m.Ω = 3 / 2 * (R3.k2 / m.pL ^ 2) * m.θ * m.sin2u E := by unfold Mean.Ωk; ring
    rw [e, abs_mul, abs_mul, abs_of_pos (by positivity)]
    calc _ ≤ 3 / 2 * 0.0001486 * 1 * (1 : ℝ) := by gcongr
      _ ≤ _ := by norm_num
  have du : |m.uk E - m.u E| ≤ 0.000224 := by
    have e : m.uk E - m.u E = -(1 / 4 * (R3.k2 / m.pL ^ 2) * (7 * m.θ ^ 2 - 1) * m.sin2u E) := by unfold Mean.uk; ring
    rw [e, abs_neg, abs_mul, abs_of_pos (mul_pos (by positivity) (by linarith))]
    calc _ ≤ 1 / 4 * 0.0001486 * 6 * (1 : ℝ) := by gcongr <;> linarith
      _ ≤ _ := by norm_num
  have di : |m.ik E| ≤ 0.0361 := by
    have e : m.ik E = m.i + 3 / 2 * (R3.k2 / m.pL ^ 2) * m.θ * Real.sin m.i * m.cos2u E := by unfold Mean.ik; ring
    rw [e]
    refine (abs_add_le _ _).trans ?_
    rw [abs_mul, abs_mul, abs_mul, abs_of_pos (by positivity : 0 < 3 / 2 * (R3.k2 / m.pL ^ 2))]
    have hs := sin_small h.i
    have : 3 / 2 * (R3.k2 / m.pL ^ 2) * |m.θ| * |Real.sin m.i| * |m.cos2u E| ≤ 3 / 2 * 0.0001486 * 1 * 0.036 * (1 : ℝ) := by gcongr
    norm_num at *; linarith [h.i]
  -- the inclination
  have p1 : ‖(⟨Real.cos (m.uk E), Real.cos (m.ik E) * Real.sin (m.uk E)⟩ : ℂ) - dir (m.uk E)‖ ≤ 0.00066 := by
    have e : (⟨Real.cos (m.uk E), Real.cos (m.ik E) * Real.sin (m.uk E)⟩ : ℂ) - dir (m.uk E) = (((Real.cos (m.ik E) - 1) * Real.sin (m.uk E) : ℝ) : ℂ) * Complex.I := by
      unfold dir
      apply Complex.ext
      · simp only [Complex.sub_re, Complex.mul_re, Complex.I_re, Complex.I_im, Complex.ofReal_im]; ring
      · simp only [Complex.sub_im, Complex.mul_im, Complex.I_re, Complex.I_im, Complex.ofReal_re]; ring
    rw [e, norm_mul, Complex.norm_I, mul_one, Complex.norm_real, Real.norm_eq_abs, abs_mul]
    have c1 := Real.one_sub_sq_div_two_le_cos (x := m.ik E)
    have c2 := Real.cos_le_one (m.ik E)
    have c3 : m.ik E ^ 2 ≤ 0.0361 ^ 2 := sq_le_sq' (abs_le.mp di).1 (abs_le.mp di).2
    have c4 : |Real.cos (m.ik E) - 1| ≤ 0.00066 := by rw [abs_le]; constructor <;> norm_num at * <;> linarith
    calc _ ≤ (0.00066 : ℝ) * 1 := mul_le_mul c4 (Real.abs_sin_le_one _) (abs_nonneg _) (by norm_num)
      _ = _ := mul_one _
  -- the equation of the centre
  have p2 := u_near_E h2 hη (by linarith [h.e1]) (by linarith) E
  have p3 : ((m.e + 0.00003) + (m.e + 0.00003) ^ 2) / (1 - (m.e + 0.00003)) ≤ 1.0216 * (m.e + 0.00003) := by
    rw [div_le_iff₀ (by linarith [h.e1])]
    nlinarith [h.e0, h.e1]
  have p4 : |m.Ω + E - m.L| ≤ m.e + 0.00003 + 0.000002 := by
    have e : m.Ω + E - m.L = longL m.i / (m.a * (1 - m.e ^ 2)) * m.axN + m.esinE E - m.kepler E := by
      unfold Mean.kepler Mean.esinE Mean.U; ring
    have hl : |longL m.i / (m.a * (1 - m.e ^ 2)) * m.axN| ≤ 0.000001 := by
      rw [abs_mul, abs_div, abs_of_pos (by linarith [h.p] : 0 < m.a * (1 - m.e ^ 2))]
      have q1 : |longL m.i| / (m.a * (1 - m.e ^ 2)) ≤ 0.00006 := by
        rw [div_le_iff₀ (by linarith [h.p])]
        have := h.p
        have := longL_le h.i
        linarith
      have q2 : |m.axN| ≤ 0.0105 := (axN_abs h2 hη).trans (by linarith [h.e1])
      calc _ ≤ (0.00006 : ℝ) * 0.0105 := mul_le_mul q1 q2 (abs_nonneg _) (by norm_num)
        _ ≤ _ := by norm_num
    rw [e]
    refine (abs_sub _ _).trans ((add_le_add ((abs_add_le _ _).trans (add_le_add hl (esinE_le h2 hη E))) hE).trans ?_)
    norm_num; linarith
  rw [Uvec_dir]
  have key : dir (m.Ωk E) * ⟨Real.cos (m.uk E), Real.cos (m.ik E) * Real.sin (m.uk E)⟩ - dir m.L =
      dir (m.Ωk E) * ((⟨Real.cos (m.uk E), Real.cos (m.ik E) * Real.sin (m.uk E)⟩ : ℂ) - dir (m.uk E)) + (dir (m.Ωk E + m.uk E) - dir (m.Ω + m.u E)) +
        dir m.Ω * (dir (m.u E) - dir E) + (dir (m.Ω + E) - dir m.L) := by
    rw [dir_add, dir_add, dir_add]; ring
  rw [key]
  have n1 := norm_add_le (dir (m.Ωk E) * ((⟨Real.cos (m.uk E), Real.cos (m.ik E) * Real.sin (m.uk E)⟩ : ℂ) - dir (m.uk E)) +
    (dir (m.Ωk E + m.uk E) - dir (m.Ω + m.u E)) + dir m.Ω * (dir (m.u E) - dir E)) (dir (m.Ω + E) - dir m.L)
  have n2 := norm_add_le (dir (m.Ωk E) * ((⟨Real.cos (m.uk E), Real.cos (m.ik E) * Real.sin (m.uk E)⟩ : ℂ) - dir (m.uk E)) +
    (dir (m.Ωk E + m.uk E) - dir (m.Ω + m.u E))) (dir m.Ω * (dir (m.u E) - dir E))
  have n3 := norm_add_le (dir (m.Ωk E) * ((⟨Real.cos (m.uk E), Real.cos (m.ik E) * Real.sin (m.uk E)⟩ : ℂ) - dir (m.uk E)))
    (dir (m.Ωk E + m.uk E) - dir (m.Ω + m.u E))
  rw [norm_mul, dir_norm, one_mul] at n2 n3
  have n4 := dir_sub_le (m.Ωk E + m.uk E) (m.Ω + m.u E)
  have n5 := dir_sub_le (m.Ω + E) m.L
  have n6 : |m.Ωk E + m.uk E - (m.Ω + m.u E)| ≤ 0.000448 := by
    rw [show m.Ωk E + m.uk E - (m.Ω + m.u E) = (m.Ωk E - m.Ω) + (m.uk E - m.u E) by ring]
    exact (abs_add_le _ _).trans (by norm_num at *; linarith)
  have := h.e1
  norm_num at *; linarith
end
end Sat
