import Verif.Props.F64Precession
import Verif.Props.MeanLongitude
/-!
# C112: at the epoch the satellite is where the printed elements put it

The classical position of an elliptic orbit (Kepler's equation, then three rotations) is written down from the printed inclination, node,
eccentricity, perigee, anomaly and revolutions per day, without any of the periodic terms of the theory. The position reported for the epoch
agrees with it to one or two per cent of the size of the orbit.
-/

namespace Sat
open F64 hiding sub
open Spec Spec.R3 Spec.SDP Chain

/-- Position in an elliptic orbit with semi-major axis `A`, eccentricity `e`, inclination `i`, ascending node `Ω`, argument of perigee `ω`, at the
eccentric anomaly `E`: the point of the ellipse, turned by the argument of perigee, the inclination and the node. -/
noncomputable def ellipsePosition (A e i Ω ω E : ℝ) : Vec3 ℝ :=
  let x := A * (Real.cos E - e)
  let y := A * Real.sqrt (1 - e ^ 2) * Real.sin E
  let x' := x * Real.cos ω - y * Real.sin ω
  let y' := x * Real.sin ω + y * Real.cos ω
  ⟨x' * Real.cos Ω - y' * Real.cos i * Real.sin Ω, x' * Real.sin Ω + y' * Real.cos i * Real.cos Ω, y' * Real.sin i⟩

/-! ## The orbital plane as the complex plane -/

/-- `e sin E` for an eccentricity vector -/
noncomputable def esin (z : ℂ) (E : ℝ) : ℝ := z.re * Real.sin E - z.im * Real.cos E

/-- position in the plane, in units of the semi-major axis, for an eccentricity vector and an eccentric longitude -/
noncomputable def ellipse (z : ℂ) (E : ℝ) : ℂ := dir E - z - Complex.I * z * ((esin z E / (1 + Real.sqrt (1 - Complex.normSq z)) : ℝ) : ℂ)

theorem esin_im (z : ℂ) (E : ℝ) : esin z E = ((starRingEnd ℂ) z * dir E).im := by
  unfold esin dir
  simp only [Complex.mul_im, Complex.conj_re, Complex.conj_im]; ring

theorem esin_abs (z : ℂ) (E : ℝ) : |esin z E| ≤ ‖z‖ := by
  rw [esin_im]
  refine (Complex.abs_im_le_norm _).trans ?_
  rw [norm_mul, dir_norm, mul_one, Complex.norm_conj]

theorem esin_close (z w : ℂ) (E F : ℝ) : |esin z E - esin w F| ≤ ‖z - w‖ + ‖w‖ * |E - F| := by
  rw [esin_im, esin_im, ← Complex.sub_im]
  refine (Complex.abs_im_le_norm _).trans ?_
  have e : (starRingEnd ℂ) z * dir E - (starRingEnd ℂ) w * dir F = (starRingEnd ℂ) (z - w) * dir E + (starRingEnd ℂ) w * (dir E - dir F) := by
    rw [map_sub]; ring
  rw [e]
  refine (norm_add_le _ _).trans (add_le_add ?_ ?_)
  · rw [norm_mul, dir_norm, mul_one, Complex.norm_conj]
  · rw [norm_mul, Complex.norm_conj]; exact mul_le_mul_of_nonneg_left (dir_sub_le _ _) (norm_nonneg _)

/-- solutions of Kepler's equation for nearby eccentricity vectors -/
theorem anomaly_close {z w : ℂ} {U V E F ρ e : ℝ} (hw : ‖w‖ ≤ e) (hE : E = U + esin z E - ρ) (hF : F = V + esin w F) :
    (1 - e) * |E - F| ≤ |U - V| + ‖z - w‖ + |ρ| := by
  have h := esin_close z w E F
  have e1 : E - F = (U - V) + (esin z E - esin w F) - ρ := by linarith only [hE, hF]
  have h2 : |E - F| ≤ |U - V| + |esin z E - esin w F| + |ρ| := by
    calc |E - F| = |(U - V) + (esin z E - esin w F) - ρ| := by rw [← e1]
      _ ≤ _ := (abs_sub _ _).trans (add_le_add (abs_add_le _ _) le_rfl)
  have h3 := mul_le_mul_of_nonneg_right hw (abs_nonneg (E - F))
  linarith only [h, h2, h3]

theorem ellipse_close {z w : ℂ} {E F : ℝ} (hz : ‖z‖ ≤ 0.45) (hw : ‖w‖ ≤ 0.45) : ‖ellipse z E - ellipse w F‖ ≤ 1.6 * ‖z - w‖ + 1.15 * |E - F| := by
  set S := Real.sqrt (1 - Complex.normSq z) with hS
  set T := Real.sqrt (1 - Complex.normSq w) with hT
  have nz : Complex.normSq z = ‖z‖ ^ 2 := Complex.normSq_eq_norm_sq z
  have nw : Complex.normSq w = ‖w‖ ^ 2 := Complex.normSq_eq_norm_sq w
  have z0 := norm_nonneg z
  have w0 := norm_nonneg w
  have hS1 : 0.89 ≤ S := Real.le_sqrt_of_sq_le (by rw [nz]; norm_num at hz ⊢; nlinarith only [hz, z0])
  have hT1 : 0.89 ≤ T := Real.le_sqrt_of_sq_le (by rw [nw]; norm_num at hw ⊢; nlinarith only [hw, w0])
  have qS : S ^ 2 = 1 - ‖z‖ ^ 2 := by rw [hS, nz, Real.sq_sqrt]; norm_num at hz; nlinarith only [hz, z0]
  have qT : T ^ 2 = 1 - ‖w‖ ^ 2 := by rw [hT, nw, Real.sq_sqrt]; norm_num at hw; nlinarith only [hw, w0]
  set d := ‖z - w‖ with hd
  set δ := |E - F| with hδ
  have d0 : 0 ≤ d := norm_nonneg _
  have δ0 : 0 ≤ δ := abs_nonneg _
  have hzw : |‖z‖ - ‖w‖| ≤ d := abs_norm_sub_norm_le z w
  have hST : |S - T| ≤ 0.51 * d := by
    have e : (S - T) * (S + T) = (‖w‖ - ‖z‖) * (‖w‖ + ‖z‖) := by linear_combination qS - qT
    have h1 : |S - T| * (S + T) ≤ d * 0.9 := by
      rw [← abs_of_pos (show 0 < S + T by norm_num at hS1 hT1; linarith only [hS1, hT1]), ← abs_mul, e, abs_mul, abs_sub_comm, abs_of_nonneg (by positivity : 0 ≤ ‖w‖ + ‖z‖)]
      exact mul_le_mul hzw (by norm_num at hz hw ⊢; linarith only [hz, hw]) (by positivity) d0
    have h2 : |S - T| * 1.78 ≤ |S - T| * (S + T) := mul_le_mul_of_nonneg_left (by norm_num at hS1 hT1 ⊢; linarith only [hS1, hT1]) (abs_nonneg _)
    norm_num at h1 h2 ⊢; linarith only [h1, h2, d0]
  set g := esin z E / (1 + S) with hg
  set h := esin w F / (1 + T) with hh
  have pS : 0 < 1 + S := by norm_num at hS1; linarith only [hS1]
  have pT : 0 < 1 + T := by norm_num at hT1; linarith only [hT1]
  have g1 : |g| ≤ 0.24 := by
    rw [hg, abs_div, abs_of_pos pS, div_le_iff₀ pS]
    have := (esin_abs z E).trans hz
    norm_num at this hS1 ⊢; linarith only [this, hS1]
  have h1 : |h| ≤ 0.24 := by
    rw [hh, abs_div, abs_of_pos pT, div_le_iff₀ pT]
    have := (esin_abs w F).trans hw
    norm_num at this hT1 ⊢; linarith only [this, hT1]
  have gh : |g - h| ≤ 0.6 * d + 0.24 * δ := by
    have e : g - h = ((esin z E - esin w F) + h * (T - S)) / (1 + S) := by rw [hg, hh]; field_simp; ring
    rw [e, abs_div, abs_of_pos pS, div_le_iff₀ pS]
    have k1 := esin_close z w E F
    have k2 : ‖w‖ * δ ≤ 0.45 * δ := mul_le_mul_of_nonneg_right hw δ0
    have k3 : |h * (T - S)| ≤ 0.24 * (0.51 * d) := by
      rw [abs_mul, abs_sub_comm T S]; exact mul_le_mul h1 hST (abs_nonneg _) (by norm_num)
    have k4 := abs_add_le (esin z E - esin w F) (h * (T - S))
    have k5 : (0.6 * d + 0.24 * δ) * 1.89 ≤ (0.6 * d + 0.24 * δ) * (1 + S) :=
      mul_le_mul_of_nonneg_left (by norm_num at hS1 ⊢; linarith only [hS1]) (by positivity)
    norm_num at k1 k2 k3 k4 k5 ⊢; linarith only [k1, k2, k3, k4, k5, d0, δ0]
  have e : ellipse z E - ellipse w F = (dir E - dir F) - (z - w) - Complex.I * ((z - w) * (g : ℂ) + w * ((g - h : ℝ) : ℂ)) := by
    unfold ellipse
    rw [← hS, ← hT, ← hg, ← hh]
    push_cast
    ring
  rw [e]
  have t1 := dir_sub_le E F
  have t2 : ‖Complex.I * ((z - w) * (g : ℂ) + w * ((g - h : ℝ) : ℂ))‖ ≤ d * 0.24 + 0.45 * (0.6 * d + 0.24 * δ) := by
    rw [norm_mul, Complex.norm_I, one_mul]
    refine (norm_add_le _ _).trans (add_le_add ?_ ?_)
    · rw [norm_mul, Complex.norm_real, Real.norm_eq_abs]; exact mul_le_mul_of_nonneg_left g1 d0
    · rw [norm_mul, Complex.norm_real, Real.norm_eq_abs]; exact mul_le_mul hw gh (abs_nonneg _) (by norm_num)
  have t3 := norm_sub_le ((dir E - dir F) - (z - w)) (Complex.I * ((z - w) * (g : ℂ) + w * ((g - h : ℝ) : ℂ)))
  have t4 := norm_sub_le (dir E - dir F) (z - w)
  generalize ‖Complex.I * ((z - w) * (g : ℂ) + w * ((g - h : ℝ) : ℂ))‖ = x1 at t2 t3
  generalize ‖dir E - dir F - (z - w) - Complex.I * ((z - w) * (g : ℂ) + w * ((g - h : ℝ) : ℂ))‖ = x2 at t3 ⊢
  norm_num at t2 ⊢; linarith only [t1, t2, t3, t4, d0, δ0]

/-- the plane position of the theory, before short-period terms -/
theorem ellipse_mean (m : Mean) (E : ℝ) (hr : m.r E ≠ 0) (he : m.eL2 ≤ 1) : (m.r E : ℂ) * dir (m.u E) = (m.a : ℂ) * ellipse ⟨m.axN, m.ayN⟩ E := by
  obtain ⟨u1, u2⟩ := cos_u_sin_u m E hr he
  have n : Complex.normSq ⟨m.axN, m.ayN⟩ = m.eL2 := by rw [Complex.normSq_mk]; unfold Mean.eL2; ring
  have s : esin ⟨m.axN, m.ayN⟩ E = m.esinE E := rfl
  unfold ellipse
  rw [n, s]
  unfold dir
  rw [u1, u2]
  apply Complex.ext
  · simp only [Complex.mul_re, Complex.sub_re, Complex.sub_im, Complex.mul_im, Complex.ofReal_re, Complex.ofReal_im, Complex.I_re, Complex.I_im]
    unfold Mean.cosu
    field_simp
    ring
  · simp only [Complex.mul_re, Complex.sub_re, Complex.sub_im, Complex.mul_im, Complex.ofReal_re, Complex.ofReal_im, Complex.I_re, Complex.I_im]
    unfold Mean.sinu
    field_simp
    ring

/-- the classical plane position -/
theorem ellipse_classical {e : ℝ} (he : 0 ≤ e ∧ e < 1) (ω E : ℝ) :
    ellipse ((e : ℂ) * dir ω) (E + ω) = dir ω * ⟨Real.cos E - e, Real.sqrt (1 - e ^ 2) * Real.sin E⟩ ∧
      ‖ellipse ((e : ℂ) * dir ω) (E + ω)‖ ≤ 1 + e := by
  have hb : 0 < 1 - e ^ 2 := by nlinarith only [he.1, he.2]
  have n : Complex.normSq ((e : ℂ) * dir ω) = e ^ 2 := by
    rw [Complex.normSq_eq_norm_sq, norm_mul, dir_norm, mul_one, Complex.norm_real, Real.norm_eq_abs, sq_abs]
  have s : esin ((e : ℂ) * dir ω) (E + ω) = e * Real.sin E := by
    unfold esin dir
    simp only [Complex.mul_re, Complex.mul_im, Complex.ofReal_re, Complex.ofReal_im, Real.sin_add, Real.cos_add]
    linear_combination e * Real.sin E * Real.sin_sq_add_cos_sq ω
  set B := Real.sqrt (1 - e ^ 2) with hB
  have B0 : 0 ≤ B := Real.sqrt_nonneg _
  have B2 : B ^ 2 = 1 - e ^ 2 := Real.sq_sqrt hb.le
  have e1 : ellipse ((e : ℂ) * dir ω) (E + ω) = dir ω * ⟨Real.cos E - e, B * Real.sin E⟩ := by
    have k : e * Real.sin E / (1 + B) * e = (1 - B) * Real.sin E := by
      field_simp; linear_combination Real.sin E * B2
    unfold ellipse
    rw [n, s, ← hB, dir_add]
    have k2 : Complex.I * ((e : ℂ) * dir ω) * ((e * Real.sin E / (1 + B) : ℝ) : ℂ) = dir ω * ⟨0, (1 - B) * Real.sin E⟩ := by
      rw [← k]
      apply Complex.ext
      · simp only [Complex.mul_re, Complex.mul_im, Complex.ofReal_re, Complex.ofReal_im, Complex.I_re, Complex.I_im]; ring
      · simp only [Complex.mul_re, Complex.mul_im, Complex.ofReal_re, Complex.ofReal_im, Complex.I_re, Complex.I_im]; ring
    rw [k2]
    have k3 : dir E - (e : ℂ) - ⟨0, (1 - B) * Real.sin E⟩ = ⟨Real.cos E - e, B * Real.sin E⟩ := by
      unfold dir
      apply Complex.ext
      · simp only [Complex.sub_re, Complex.ofReal_re]; ring
      · simp only [Complex.sub_im, Complex.ofReal_im]; ring
    rw [← k3]; ring
  refine ⟨e1, ?_⟩
  rw [e1, norm_mul, dir_norm, one_mul, Complex.norm_def]
  refine Real.sqrt_le_iff.mpr ⟨by linarith only [he.1], ?_⟩
  rw [Complex.normSq_mk]
  have c1 := Real.neg_one_le_cos E
  have c2 := Real.cos_le_one E
  have e3 : (Real.cos E - e) * (Real.cos E - e) + B * Real.sin E * (B * Real.sin E) = (1 - e * Real.cos E) ^ 2 := by
    linear_combination Real.sin E ^ 2 * B2 + (1 - e ^ 2) * Real.sin_sq_add_cos_sq E
  rw [e3]
  have l1 : 0 ≤ 1 - e * Real.cos E := by nlinarith only [he.1, he.2, c2]
  have l2 : 1 - e * Real.cos E ≤ 1 + e := by nlinarith only [he.1, c1]
  exact pow_le_pow_left₀ l1 l2 2

/-! ## From the plane to space -/

/-- the point of space at `Z` in the plane with node `Ω` and inclination `i` -/
noncomputable def place (Z : ℂ) (Ω i : ℝ) : Vec3 ℝ :=
  ⟨Z.re * Real.cos Ω - Z.im * Real.cos i * Real.sin Ω, Z.re * Real.sin Ω + Z.im * Real.cos i * Real.cos Ω, Z.im * Real.sin i⟩

theorem place_ellipse {A e i Ω ω E : ℝ} (he : 0 ≤ e ∧ e < 1) :
    ellipsePosition A e i Ω ω E = place ((A : ℂ) * ellipse ((e : ℂ) * dir ω) (E + ω)) Ω i := by
  rw [(ellipse_classical he ω E).1]
  unfold ellipsePosition place dir
  simp only [Complex.mul_re, Complex.mul_im, Complex.ofReal_re, Complex.ofReal_im]
  congr 1 <;> ring

theorem place_position (m : Mean) (E : ℝ) : vec (m.positionKm E) = place (((m.rk E * kmPerRadius : ℝ) : ℂ) * dir (m.uk E)) (m.Ωk E) (m.ik E) := by
  unfold vec place dir Mean.positionKm Mean.Uvec
  simp only [Complex.mul_re, Complex.mul_im, Complex.ofReal_re, Complex.ofReal_im, Matrix.cons_val_zero, Matrix.cons_val_one, Matrix.cons_val]
  congr 1 <;> ring

theorem place_close {Z W : ℂ} {Ω Ω' i i' a c : ℝ} (h1 : |Ω - Ω'| ≤ a) (h2 : |i - i'| ≤ c) :
    |(place Z Ω i).x - (place W Ω' i').x| ≤ ‖Z - W‖ + ‖W‖ * (2 * a + c) ∧
    |(place Z Ω i).y - (place W Ω' i').y| ≤ ‖Z - W‖ + ‖W‖ * (2 * a + c) ∧
    |(place Z Ω i).z - (place W Ω' i').z| ≤ ‖Z - W‖ + ‖W‖ * (2 * a + c) := by
  have a0 : 0 ≤ a := (abs_nonneg _).trans h1
  have c0 : 0 ≤ c := (abs_nonneg _).trans h2
  have w0 := norm_nonneg W
  have re := Complex.abs_re_le_norm W
  have im := Complex.abs_im_le_norm W
  have cau : ∀ p q : ℝ, p ^ 2 + q ^ 2 ≤ 1 → |(Z - W).re * p + (Z - W).im * q| ≤ ‖Z - W‖ := by
    intro p q h
    refine abs_le_of_sq_le_sq ?_ (norm_nonneg _)
    rw [← Complex.normSq_eq_norm_sq, Complex.normSq_apply]
    generalize (Z - W).re = x
    generalize (Z - W).im = y
    have : (x * x + y * y) * (p ^ 2 + q ^ 2) ≤ (x * x + y * y) * 1 := mul_le_mul_of_nonneg_left h (add_nonneg (mul_self_nonneg _) (mul_self_nonneg _))
    nlinarith only [this, sq_nonneg (x * q - y * p)]
  have cs : |Real.cos Ω - Real.cos Ω'| ≤ a := (Real.abs_cos_sub_cos_le _ _).trans h1
  have sn : |Real.sin Ω - Real.sin Ω'| ≤ a := (Real.abs_sin_sub_sin_le _ _).trans h1
  have ci : |Real.cos i - Real.cos i'| ≤ c := (Real.abs_cos_sub_cos_le _ _).trans h2
  have si : |Real.sin i - Real.sin i'| ≤ c := (Real.abs_sin_sub_sin_le _ _).trans h2
  have prod : ∀ x y : ℝ, |x - y| ≤ a → |y| ≤ 1 → |Real.cos i * x - Real.cos i' * y| ≤ a + c := by
    intro x y g1 g2
    have e : Real.cos i * x - Real.cos i' * y = Real.cos i * (x - y) + (Real.cos i - Real.cos i') * y := by ring
    rw [e]
    refine (abs_add_le _ _).trans (add_le_add ?_ ?_)
    · rw [abs_mul]; exact (mul_le_of_le_one_left (abs_nonneg _) (Real.abs_cos_le_one _)).trans g1
    · rw [abs_mul]; exact (mul_le_of_le_one_right (abs_nonneg _) g2).trans ci
  have two : ∀ p q : ℝ, |p| ≤ a → |q| ≤ a + c → |W.re * p + W.im * q| ≤ ‖W‖ * (2 * a + c) := by
    intro p q g1 g2
    calc |W.re * p + W.im * q| ≤ |W.re| * |p| + |W.im| * |q| := by rw [← abs_mul, ← abs_mul]; exact abs_add_le _ _
      _ ≤ ‖W‖ * a + ‖W‖ * (a + c) := add_le_add (mul_le_mul re g1 (abs_nonneg _) w0) (mul_le_mul im g2 (abs_nonneg _) w0)
      _ = _ := by ring
  have qi : Real.cos i ^ 2 ≤ 1 := Real.cos_sq_le_one i
  have qo := Real.sin_sq_add_cos_sq Ω
  have unit : ∀ p q : ℝ, p ^ 2 + q ^ 2 = 1 → p ^ 2 + (Real.cos i * q) ^ 2 ≤ 1 := by
    intro p q h
    have : Real.cos i ^ 2 * q ^ 2 ≤ 1 * q ^ 2 := mul_le_mul_of_nonneg_right qi (sq_nonneg _)
    rw [mul_pow]; linarith only [this, h]
  refine ⟨?_, ?_, ?_⟩
  · have e : (place Z Ω i).x - (place W Ω' i').x = ((Z - W).re * Real.cos Ω + (Z - W).im * (Real.cos i * -Real.sin Ω)) +
        (W.re * (Real.cos Ω - Real.cos Ω') + W.im * -(Real.cos i * Real.sin Ω - Real.cos i' * Real.sin Ω')) := by
      unfold place; simp only [Complex.sub_re, Complex.sub_im]; ring
    rw [e]
    exact (abs_add_le _ _).trans (add_le_add (cau _ _ (unit _ _ (by rw [neg_sq]; linarith only [qo]))) (two _ _ cs (by rw [abs_neg]; exact prod _ _ sn (Real.abs_sin_le_one _))))
  · have e : (place Z Ω i).y - (place W Ω' i').y = ((Z - W).re * Real.sin Ω + (Z - W).im * (Real.cos i * Real.cos Ω)) +
        (W.re * (Real.sin Ω - Real.sin Ω') + W.im * (Real.cos i * Real.cos Ω - Real.cos i' * Real.cos Ω')) := by
      unfold place; simp only [Complex.sub_re, Complex.sub_im]; ring
    rw [e]
    exact (abs_add_le _ _).trans (add_le_add (cau _ _ (unit _ _ qo)) (two _ _ sn (prod _ _ cs (Real.abs_cos_le_one _))))
  · have e : (place Z Ω i).z - (place W Ω' i').z = ((Z - W).re * 0 + (Z - W).im * Real.sin i) + (W.re * 0 + W.im * (Real.sin i - Real.sin i')) := by
      unfold place; simp only [Complex.sub_re, Complex.sub_im]; ring
    rw [e]
    exact (abs_add_le _ _).trans (add_le_add (cau _ _ (by have := Real.sin_sq_le_one i; linarith only [this])) (two _ _ (by rw [abs_zero]; exact a0) (si.trans (by linarith only [a0]))))

/-! ## The mean elements at the epoch -/

theorem mean_epoch (q : Orbit) (node : ℝ) : q.mean node 0 =
    { a := q.a, e := max q.e (1 / 10 ^ 6), ω := q.argp, Ω := node, L := q.anom + q.argp + node, i := q.inc } := by
  have hM : q.MDF 0 = q.anom := by unfold Orbit.MDF; ring
  have hδ : q.δωM 0 = 0 := by
    unfold Orbit.δωM; split_ifs
    · rw [hM]; ring
    · rfl
  have hp : q.Mp 0 = q.anom := by unfold Orbit.Mp; rw [hM, hδ, add_zero]
  have hw : q.ω 0 = q.argp := by unfold Orbit.ω Orbit.ωDF; rw [hδ]; ring
  have hΩ : q.Ω node 0 = node := by unfold Orbit.Ω; ring
  have hd : q.dL 0 = 0 := by unfold Orbit.dL; split_ifs <;> ring
  have hL : q.L node 0 = q.anom + q.argp + node := by unfold Orbit.L; rw [hp, hw, hΩ, hd]; ring
  have he : q.eRaw 0 = q.e := by
    unfold Orbit.eRaw; split_ifs
    · rw [hp]; ring
    · ring
  have ha : q.aT 0 = q.a := by unfold Orbit.aT; split_ifs <;> ring
  unfold Orbit.mean
  rw [hw, hΩ, hL, he, ha]

theorem longAy_abs (i : ℝ) : |longAy i| ≤ 0.00117 := by
  have e : longAy i = a30 / (4 * R3.k2) * Real.sin i := by unfold longAy; ring
  rw [e, abs_mul]
  have h1 : |a30 / (4 * R3.k2)| ≤ 0.00117 := by
    unfold a30 R3.k2 j2 j3
    rw [abs_of_pos (by norm_num)]; norm_num
  exact (mul_le_of_le_one_right (abs_nonneg _) (Real.abs_sin_le_one _)).trans h1

theorem longL_abs {i : ℝ} (h : 1 / 100 ≤ 1 + Real.cos i) : |longL i| ≤ 0.0202 := by
  unfold longL
  rw [max_eq_left (le_trans (by norm_num) h)]
  have hs1 := Real.abs_sin_le_one i
  have hs : Real.sin i ^ 2 + Real.cos i ^ 2 = 1 := Real.sin_sq_add_cos_sq i
  have hc1 : Real.cos i ≤ 1 := Real.cos_le_one i
  generalize Real.sin i = s at *
  generalize Real.cos i = c at *
  have hc0 : 0 < 1 + c := by linarith only [h]
  have h1 : |s / (1 + c)| ≤ 14.2 := by
    rw [abs_div, abs_of_pos hc0, div_le_iff₀ hc0]
    apply abs_le_of_sq_le_sq _ (by norm_num; linarith only [h])
    have : s ^ 2 = (1 - c) * (1 + c) := by linear_combination hs
    rw [this]
    norm_num; nlinarith only [h, hc1]
  have h3 : |a30 / (8 * R3.k2)| ≤ 0.0006 := by
    unfold a30 j3 R3.k2 j2; rw [abs_of_pos] <;> norm_num
  have e : a30 * s / (8 * R3.k2) * ((3 + 5 * c) / (1 + c)) = a30 / (8 * R3.k2) * (5 * s - 2 * (s / (1 + c))) := by field_simp; ring
  rw [e, abs_mul]
  have h4 : |5 * s - 2 * (s / (1 + c))| ≤ 5 * 1 + 2 * 14.2 := by
    refine (abs_sub _ _).trans (add_le_add ?_ ?_)
    · rw [abs_mul, abs_of_pos (by norm_num : (0 : ℝ) < 5)]; linarith only [hs1]
    · rw [abs_mul, abs_two]; linarith only [h1]
  calc |a30 / (8 * R3.k2)| * |5 * s - 2 * (s / (1 + c))| ≤ 0.0006 * (5 * 1 + 2 * 14.2) := mul_le_mul h3 h4 (abs_nonneg _) (by norm_num)
    _ ≤ _ := by norm_num

theorem uk_near {m : Mean} (h : Fair m) (E : ℝ) : |m.uk E - m.u E| ≤ 0.00082 := by
  have hc : |m.sin2u E| ≤ 1 := by
    unfold Mean.sin2u
    by_cases hr : m.r E = 0
    · unfold Mean.sinu; rw [hr]; simp
    · have := sinu_sq_add_cosu_sq m E hr (h.ecc.trans (by norm_num))
      rw [abs_le]; constructor <;> nlinarith [sq_nonneg (m.cosu E + m.sinu E), sq_nonneg (m.cosu E - m.sinu E)]
  have ht : |7 * m.θ ^ 2 - 1| ≤ 6 := by
    have h1 : m.θ ^ 2 ≤ 1 := Real.cos_sq_le_one _
    have h2 := sq_nonneg m.θ
    rw [abs_le]; constructor <;> linarith only [h1, h2]
  have hp : 0.996 ≤ m.pL ^ 2 := by have := h.per; norm_num at this ⊢; nlinarith
  have hk : |R3.k2 / (4 * m.pL ^ 2)| ≤ 0.00082 / 6 := by
    have k0 : 0 < R3.k2 := by unfold R3.k2 R3.j2; norm_num
    rw [abs_of_pos (div_pos k0 (by linarith)), div_le_iff₀ (by linarith)]
    unfold R3.k2 R3.j2; norm_num at hp ⊢; linarith
  have e : m.uk E - m.u E = -(R3.k2 / (4 * m.pL ^ 2) * (7 * m.θ ^ 2 - 1) * m.sin2u E) := by unfold Mean.uk; ring
  rw [e, abs_neg, abs_mul, abs_mul]
  calc |R3.k2 / (4 * m.pL ^ 2)| * |7 * m.θ ^ 2 - 1| * |m.sin2u E| ≤ 0.00082 / 6 * 6 * 1 :=
        mul_le_mul (mul_le_mul hk ht (abs_nonneg _) (by norm_num)) hc (abs_nonneg _) (by norm_num)
    _ ≤ 0.00082 := by norm_num

/-- the plane position of the theory at the epoch against the classical one -/
theorem plane_epoch {q : Orbit} (Q : Quiet q 0) (node A F : ℝ) {k : ℝ} (hA : 0 < A) (b1 : 0.996 * A ≤ q.a * 6378.137) (b2 : q.a * 6378.137 ≤ 1.0045 * A)
    (hF : F - q.e * Real.sin F = q.anom) (hk : |(q.mean node 0).kepler k| ≤ 1.45e-12) :
    ‖(((q.mean node 0).rk k * kmPerRadius : ℝ) : ℂ) * dir ((q.mean node 0).uk k) - (A : ℂ) * ellipse ((q.e : ℂ) * dir q.argp) (F + q.argp)‖ ≤
      (0.0118 + 0.0484 * q.e) * A := by
  obtain ⟨g1, g2, g3, g4, -⟩ := quiet_numbers Q node
  have FA := Q.fair node
  have hu := uk_near FA k
  obtain ⟨p1, p2, p3, -, p5, -, p7, -, -⟩ := perturbation_bounds (q.mean node 0) k ⟨g1, g2.trans (by norm_num)⟩ (le_trans (by norm_num) g3)
  obtain ⟨e0, e1⟩ := Q.ecc
  have hr0 : (q.mean node 0).r k ≠ 0 := by norm_num at p3; intro h0; rw [h0] at p3; norm_num at p3
  have hEl := ellipse_mean (q.mean node 0) k hr0 p5
  have hec := FA.ecc
  have hll := longL_abs Q.incl
  have hay := longAy_abs q.inc
  have hz : ‖(⟨(q.mean node 0).axN, (q.mean node 0).ayN⟩ : ℂ)‖ ≤ 0.45 := by
    rw [Complex.norm_def]
    refine Real.sqrt_le_iff.mpr ⟨by norm_num, ?_⟩
    rw [Complex.normSq_mk]
    unfold Mean.eL2 at hec
    nlinarith only [hec]
  have hw : ‖(q.e : ℂ) * dir q.argp‖ = q.e := by rw [norm_mul, dir_norm, mul_one, Complex.norm_real, Real.norm_eq_abs, abs_of_nonneg e0]
  have hm := mean_epoch q node
  set m := q.mean node 0 with hmd
  have ma : m.a = q.a := by rw [hm]
  have me : m.e = max q.e (1 / 10 ^ 6) := by rw [hm]
  have mw : m.ω = q.argp := by rw [hm]
  have mi : m.i = q.inc := by rw [hm]
  have mU : m.U = q.anom + q.argp + longL q.inc / (m.a * (1 - m.e ^ 2)) * m.axN := by
    unfold Mean.U
    rw [mi, show m.L = q.anom + q.argp + node by rw [hm], show m.Ω = node by rw [hm]]; ring
  have hme : |m.e - q.e| ≤ 0.000001 := by
    rw [me]
    rcases le_total q.e (1 / 10 ^ 6) with h | h
    · rw [max_eq_right h, abs_le]; constructor <;> norm_num at h ⊢ <;> linarith only [h, e0]
    · rw [max_eq_left h, sub_self, abs_zero]; norm_num
  have hp0 : 0 < m.a * (1 - m.e ^ 2) := lt_of_lt_of_le one_pos g4
  -- the eccentricity vector
  set z : ℂ := ⟨m.axN, m.ayN⟩ with hzd
  set w : ℂ := (q.e : ℂ) * dir q.argp with hwd
  have hzw : ‖z - w‖ ≤ 0.001171 + 0.000001 := by
    have e : z - w = ((m.e - q.e : ℝ) : ℂ) * dir q.argp + ((longAy q.inc / (m.a * (1 - m.e ^ 2)) : ℝ) : ℂ) * Complex.I := by
      rw [hzd, hwd]
      unfold Mean.axN Mean.ayN dir
      rw [mw, mi]
      apply Complex.ext
      · simp only [Complex.sub_re, Complex.add_re, Complex.mul_re, Complex.ofReal_re, Complex.ofReal_im, Complex.I_re, Complex.I_im]; ring
      · simp only [Complex.sub_im, Complex.add_im, Complex.mul_im, Complex.ofReal_re, Complex.ofReal_im, Complex.I_re, Complex.I_im]; ring
    rw [e]
    refine (norm_add_le _ _).trans ?_
    rw [norm_mul, norm_mul, dir_norm, Complex.norm_I, mul_one, mul_one, Complex.norm_real, Complex.norm_real, Real.norm_eq_abs, Real.norm_eq_abs, add_comm]
    refine add_le_add ?_ hme
    rw [abs_div, abs_of_pos hp0, div_le_iff₀ hp0]
    norm_num at hay ⊢; linarith only [hay, g4]
  -- the eccentric longitude
  have hUV : |m.U - (q.anom + q.argp)| ≤ 0.0202 * (q.e + 0.000001) := by
    rw [mU, add_sub_cancel_left, abs_mul]
    refine mul_le_mul ?_ ?_ (abs_nonneg _) (by norm_num)
    · rw [abs_div, abs_of_pos hp0, div_le_iff₀ hp0]
      norm_num at hll ⊢; linarith only [hll, g4]
    · unfold Mean.axN
      rw [abs_mul, abs_of_nonneg g1]
      have := (abs_le.mp hme).2
      exact (mul_le_of_le_one_right g1 (Real.abs_cos_le_one _)).trans (by linarith only [this])
  have hE : k = m.U + esin z k - m.kepler k := by
    rw [hzd]; unfold esin Mean.kepler; ring
  have hs : esin w (F + q.argp) = q.e * Real.sin F := by
    rw [hwd]; unfold esin dir
    simp only [Complex.mul_re, Complex.mul_im, Complex.ofReal_re, Complex.ofReal_im, Real.sin_add, Real.cos_add]
    linear_combination q.e * Real.sin F * Real.sin_sq_add_cos_sq q.argp
  have hV : F + q.argp = (q.anom + q.argp) + esin w (F + q.argp) := by rw [hs]; linarith only [hF]
  have hEF := anomaly_close (e := q.e) hw.le hE hV
  have hδ : |k - (F + q.argp)| ≤ 0.0021 + 0.0355 * q.e := by
    have : 0.57 * |k - (F + q.argp)| ≤ (1 - q.e) * |k - (F + q.argp)| := mul_le_mul_of_nonneg_right (by norm_num at e1 ⊢; linarith only [e1]) (abs_nonneg _)
    norm_num at this hEF hUV hzw hk ⊢; linarith only [this, hEF, hUV, hzw, hk, e0]
  have hcl := ellipse_close (z := z) (w := w) (E := k) (F := F + q.argp) hz (hw.le.trans (e1.trans (by norm_num)))
  have hcl2 : ‖ellipse z k - ellipse w (F + q.argp)‖ ≤ 0.0043 + 0.0409 * q.e := by
    norm_num at hcl hzw hδ ⊢; linarith only [hcl, hzw, hδ, e0]
  obtain ⟨-, hn⟩ := ellipse_classical ⟨e0, lt_of_le_of_lt e1 (by norm_num)⟩ q.argp F
  -- short-period terms
  have hr1 : m.r k ≤ m.a * (1.0013 + q.e) := by
    unfold Mean.r
    refine mul_le_mul_of_nonneg_left ?_ (le_trans zero_le_one p1)
    have hzn : ‖z‖ ≤ q.e + 0.0012 := by
      have := norm_le_norm_add_norm_sub' z w
      rw [hw] at this
      norm_num at hzw ⊢; linarith only [this, hzw]
    have hq : m.eL2 ≤ (q.e + 0.0012) ^ 2 := by
      have e : m.eL2 = ‖z‖ ^ 2 := by
        rw [← Complex.normSq_eq_norm_sq, hzd, Complex.normSq_mk]; unfold Mean.eL2; ring
      rw [e]; exact pow_le_pow_left₀ (norm_nonneg _) hzn 2
    have := (abs_le.mp (ecosE_le hq (by positivity) k)).1
    norm_num at this ⊢; linarith only [this]
  have hrp : 0 < m.r k := lt_of_lt_of_le (by norm_num) p3
  have hK : (kmPerRadius : ℝ) = 6378.137 := rfl
  set B := q.a * 6378.137 with hB
  have hB0 : 0 < B := lt_of_lt_of_le (by positivity) b1
  have t1 : ‖((m.rk k * kmPerRadius : ℝ) : ℂ) * dir (m.uk k) - ((m.r k * kmPerRadius : ℝ) : ℂ) * dir (m.u k)‖ ≤ 0.002734 * (B * (1.0013 + q.e)) := by
    have e : ((m.rk k * kmPerRadius : ℝ) : ℂ) * dir (m.uk k) - ((m.r k * kmPerRadius : ℝ) : ℂ) * dir (m.u k) =
        (((m.rk k - m.r k) * kmPerRadius : ℝ) : ℂ) * dir (m.uk k) + ((m.r k * kmPerRadius : ℝ) : ℂ) * (dir (m.uk k) - dir (m.u k)) := by
      push_cast; ring
    rw [e]
    have n1 := norm_add_le ((((m.rk k - m.r k) * kmPerRadius : ℝ) : ℂ) * dir (m.uk k)) (((m.r k * kmPerRadius : ℝ) : ℂ) * (dir (m.uk k) - dir (m.u k)))
    rw [norm_mul, norm_mul, dir_norm, mul_one, Complex.norm_real, Complex.norm_real, Real.norm_eq_abs, Real.norm_eq_abs, abs_mul, abs_mul,
      abs_of_pos hrp, hK, abs_of_pos (by norm_num : (0 : ℝ) < 6378.137)] at n1
    rw [hK]
    refine n1.trans ?_
    have n2 : m.r k * 6378.137 * ‖dir (m.uk k) - dir (m.u k)‖ ≤ m.r k * 6378.137 * 0.00082 :=
      mul_le_mul_of_nonneg_left ((dir_sub_le _ _).trans hu) (by positivity)
    have n3 : |m.rk k - m.r k| * 6378.137 ≤ 0.001914 * m.r k * 6378.137 := mul_le_mul_of_nonneg_right p7 (by norm_num)
    calc _ ≤ 0.001914 * m.r k * 6378.137 + m.r k * 6378.137 * 0.00082 := add_le_add n3 n2
      _ = 0.002734 * (m.r k * 6378.137) := by ring
      _ ≤ 0.002734 * (m.a * (1.0013 + q.e) * 6378.137) := by gcongr
      _ = _ := by rw [hB, ma]; ring
  have t2 : ‖((m.r k * kmPerRadius : ℝ) : ℂ) * dir (m.u k) - (A : ℂ) * ellipse w (F + q.argp)‖ ≤ B * (0.0043 + 0.0409 * q.e) + 0.0045 * A * (1 + q.e) := by
    have e : ((m.r k * kmPerRadius : ℝ) : ℂ) * dir (m.u k) - (A : ℂ) * ellipse w (F + q.argp) =
        (B : ℂ) * (ellipse z k - ellipse w (F + q.argp)) + ((B - A : ℝ) : ℂ) * ellipse w (F + q.argp) := by
      have e2 : ((m.r k * kmPerRadius : ℝ) : ℂ) * dir (m.u k) = (kmPerRadius : ℂ) * ((m.r k : ℂ) * dir (m.u k)) := by push_cast; ring
      rw [e2, hEl, ma, hK, hB]
      push_cast; ring
    rw [e]
    refine (norm_add_le _ _).trans (add_le_add ?_ ?_)
    · rw [norm_mul, Complex.norm_real, Real.norm_eq_abs, abs_of_pos hB0]; exact mul_le_mul_of_nonneg_left hcl2 hB0.le
    · rw [norm_mul, Complex.norm_real, Real.norm_eq_abs]
      refine mul_le_mul ?_ hn (norm_nonneg _) (by positivity)
      rw [abs_le]; constructor <;> norm_num at b1 b2 ⊢ <;> linarith only [b1, b2, hA]
  have t3 := norm_sub_le_norm_sub_add_norm_sub (((m.rk k * kmPerRadius : ℝ) : ℂ) * dir (m.uk k)) (((m.r k * kmPerRadius : ℝ) : ℂ) * dir (m.u k))
    ((A : ℂ) * ellipse w (F + q.argp))
  refine t3.trans ((add_le_add t1 t2).trans ?_)
  have s1 : 0.002734 * (B * (1.0013 + q.e)) ≤ 0.002734 * (1.0045 * A * (1.0013 + q.e)) := by gcongr
  have s2 : B * (0.0043 + 0.0409 * q.e) ≤ 1.0045 * A * (0.0043 + 0.0409 * q.e) := by gcongr
  have s3 : 0 ≤ A * q.e := by positivity
  norm_num at s1 s2 ⊢
  nlinarith only [s1, s2, s3, hA]

theorem iss_axis {A : ℝ} (hA : 0 < A) (hA3 : A ^ 3 * ((1572125391 : ℕ) / 10 ^ 8 * (2 * Real.pi) / 86400) ^ 2 = (398600.5 : ℝ)) : 6700 ≤ A ∧ A ≤ 6750 := by
  have hp0 := Real.pi_gt_d4
  have hp1 := Real.pi_lt_d4
  constructor
  · by_contra hcon
    have : A ^ 3 * ((1572125391 : ℕ) / 10 ^ 8 * (2 * Real.pi) / 86400) ^ 2 ≤ 6700 ^ 3 * ((1572125391 : ℕ) / 10 ^ 8 * (2 * 3.1416) / 86400) ^ 2 := by
      have := (not_le.mp hcon).le
      gcongr
    rw [hA3] at this
    norm_num at this
  · by_contra hcon
    have : 6750 ^ 3 * ((1572125391 : ℕ) / 10 ^ 8 * (2 * 3.1415) / 86400) ^ 2 ≤ A ^ 3 * ((1572125391 : ℕ) / 10 ^ 8 * (2 * Real.pi) / 86400) ^ 2 := by
      have := (not_le.mp hcon).le
      gcongr
    rw [hA3] at this
    norm_num at this

variable [Libm]

/-- **C112.** At the epoch (zero minutes), the position reported for a near-earth satellite is the classical one for the printed elements, up to
`0.014 + 0.051 e` of the semi-major axis in each coordinate. -/
theorem C112_epoch_f64 (hL : Libm.Faithful) (l1 l2 : Str) (v : Tle) (h : Printed l1 l2 v) (hpos : v.nddotNeg = false ∨ v.nddotMant = 0)
    (hnd : Normal v.nddotMant) (hb : Normal v.bstarMant) (t : F64) (ht : t.Fin) (ht0 : t.val = 0) (hl : LowTle v 0) :
    ∃ (s : Satrec F64) (p : SGP4Result F64) (A E : ℝ), twoline2satrec l1 l2 = .ok s ∧ (sgp4 s t).map Prod.snd = some (.ok p) ∧
      0 < A ∧ A ^ 3 * ((v.noE8 : ℝ) / 10 ^ 8 * (2 * Real.pi) / 86400) ^ 2 = 398600.5 ∧
      E - (v.eccE7 : ℝ) / 10 ^ 7 * Real.sin E = (v.moE4 : ℝ) / 10 ^ 4 * (Real.pi / 180) ∧
      let X := ellipsePosition A ((v.eccE7 : ℝ) / 10 ^ 7) ((v.inclE4 : ℝ) / 10 ^ 4 * (Real.pi / 180)) ((v.nodeE4 : ℝ) / 10 ^ 4 * (Real.pi / 180))
        ((v.argpE4 : ℝ) / 10 ^ 4 * (Real.pi / 180)) E
      let ε := (0.014 + 0.051 * ((v.eccE7 : ℝ) / 10 ^ 7)) * A
      |p.position.x.val - X.x| ≤ ε ∧ |p.position.y.val - X.y| ≤ ε ∧ |p.position.z.val - X.z| ≤ ε := by
  obtain ⟨s, p, hs, hp, k, -, k2, k3, c1, c2⟩ := C85_text_to_state_f64 hL l1 l2 v h hpos hnd hb t ht (by rw [ht0]; exact hl)
  have Q := quiet_low hL h hpos hnd hb hl
  rw [ht0] at k2 k3 c1
  obtain ⟨-, hker, -⟩ := C65_kepler_converges _ (Q.fair (tleNode v)).ecc k k2 k3
  obtain ⟨n1, n2, n3⟩ := tle_motion_lower hl
  have n4 := tle_motion_upper hl
  have hqn := Q.mot
  have hcube : (tleOrbit v).a ^ 3 = (ke / (tleOrbit v).n) ^ 2 := axis_cubed hqn
  have ha0 : 0 < (tleOrbit v).a := by
    show 0 < (ke / (tleOrbit v).n) ^ (2 / 3 : ℝ)
    exact Real.rpow_pos_of_pos (div_pos ke_pos hqn) _
  obtain ⟨q1, q2⟩ := cube_bounds n2 hqn hcube (by norm_num at n1 ⊢; linarith only [n1, n2]) (by norm_num at n4 ⊢; linarith only [n4, n2])
  obtain ⟨A, hA, hA3⟩ := exists_axis n2
  obtain ⟨b1, b2⟩ := third_law ha0 n2 hA hA3 q1 q2
  obtain ⟨e0, e1⟩ := Q.ecc
  obtain ⟨E, hE⟩ : ∃ E, E - (tleOrbit v).e * Real.sin E = (tleOrbit v).anom := by
    obtain ⟨E, hE⟩ := exists_root { a := 1, e := (tleOrbit v).e, ω := 0, Ω := 0, L := (tleOrbit v).anom, i := 0 }
    refine ⟨E, ?_⟩
    unfold Mean.kepler Mean.U Mean.ayN Mean.axN longAy longL at hE
    simp only [Real.sin_zero, Real.cos_zero, mul_zero, zero_div, zero_mul, add_zero, sub_zero, mul_one] at hE
    linarith only [hE]
  have hpl := plane_epoch Q (tleNode v) A E hA b1 b2 hE hker
  have hik := ik_near (Q.fair (tleNode v)) (((tleOrbit v).mean (tleNode v) 0).newton k)
  have hΩk := Ωk_near (Q.fair (tleNode v)) (((tleOrbit v).mean (tleNode v) 0).newton k)
  have hm := mean_epoch (tleOrbit v) (tleNode v)
  have hme : 1 ≤ (tleOrbit v).a := by
    have := Q.per
    have h2 : (tleOrbit v).a * (1 - (tleOrbit v).e) ≤ (tleOrbit v).a * 1 := mul_le_mul_of_nonneg_left (by linarith only [e0]) ha0.le
    norm_num at this; linarith only [this, h2]
  have mΩ : ((tleOrbit v).mean (tleNode v) 0).Ω = (v.nodeE4 : ℝ) / 10 ^ 4 * (Real.pi / 180) := by rw [hm]; rfl
  have mi : ((tleOrbit v).mean (tleNode v) 0).i = (v.inclE4 : ℝ) / 10 ^ 4 * (Real.pi / 180) := rfl
  rw [mΩ] at hΩk
  rw [mi] at hik
  rw [place_position] at c1
  have hcl := place_close (Z := ((((tleOrbit v).mean (tleNode v) 0).rk (((tleOrbit v).mean (tleNode v) 0).newton k) * kmPerRadius : ℝ) : ℂ) *
    dir (((tleOrbit v).mean (tleNode v) 0).uk (((tleOrbit v).mean (tleNode v) 0).newton k)))
    (W := (A : ℂ) * ellipse (((tleOrbit v).e : ℂ) * dir (tleOrbit v).argp) (E + (tleOrbit v).argp)) hΩk hik
  rw [← place_ellipse ⟨e0, lt_of_le_of_lt e1 (by norm_num)⟩] at hcl
  obtain ⟨-, hn⟩ := ellipse_classical ⟨e0, lt_of_le_of_lt e1 (by norm_num)⟩ (tleOrbit v).argp E
  have hW : ‖(A : ℂ) * ellipse (((tleOrbit v).e : ℂ) * dir (tleOrbit v).argp) (E + (tleOrbit v).argp)‖ ≤ A * (1 + (tleOrbit v).e) := by
    rw [norm_mul, Complex.norm_real, Real.norm_eq_abs, abs_of_pos hA]
    exact mul_le_mul_of_nonneg_left hn hA.le
  have hAlo : 6000 ≤ A := by norm_num at b2; linarith only [b2, hme]
  have fin : ∀ {x y u : ℝ}, |x - y| ≤ 1 / 10 ^ 3 →
      |y - u| ≤ ‖((((tleOrbit v).mean (tleNode v) 0).rk (((tleOrbit v).mean (tleNode v) 0).newton k) * kmPerRadius : ℝ) : ℂ) *
        dir (((tleOrbit v).mean (tleNode v) 0).uk (((tleOrbit v).mean (tleNode v) 0).newton k)) -
        (A : ℂ) * ellipse (((tleOrbit v).e : ℂ) * dir (tleOrbit v).argp) (E + (tleOrbit v).argp)‖ +
        ‖(A : ℂ) * ellipse (((tleOrbit v).e : ℂ) * dir (tleOrbit v).argp) (E + (tleOrbit v).argp)‖ * (2 * 0.00082 + 0.00041) →
      |x - u| ≤ (0.014 + 0.051 * (tleOrbit v).e) * A := by
    intro x y u g1 g2
    have g3 := (abs_sub_le x y u).trans (add_le_add g1 g2)
    refine g3.trans ((add_le_add le_rfl (add_le_add hpl (mul_le_mul_of_nonneg_right hW (by norm_num)))).trans ?_)
    have s3 : 0 ≤ A * (tleOrbit v).e := mul_nonneg hA.le e0
    norm_num
    nlinarith only [s3, hAlo]
  refine ⟨s, p, A, E, hs, hp, hA, ?_, hE, fin c1.1.2 hcl.1, fin c1.2.1.2 hcl.2.1, fin c1.2.2.2 hcl.2.2⟩
  rw [← hA3]; unfold tleMotion; ring

/-- The International Space Station: at the epoch, each coordinate is within 95 km of that of the ellipse with the printed elements, whose
semi-major axis is between 6700 and 6750 km. -/
theorem iss_epoch (hL : Libm.Faithful) (t : F64) (ht : t.Fin) (ht0 : t.val = 0) :
    ∃ (s : Satrec F64) (p : SGP4Result F64) (A E : ℝ),
      twoline2satrec "1 25544U 98067A   08264.51782528 -.00002182  00000-0 -11606-4 0  2927".toList
        "2 25544  51.6416 247.4627 0006703 130.5360 325.0288 15.72125391563537".toList = .ok s ∧ (sgp4 s t).map Prod.snd = some (.ok p) ∧
      6700 ≤ A ∧ A ≤ 6750 ∧ E - ((6703 : ℕ) : ℝ) / 10 ^ 7 * Real.sin E = ((3250288 : ℕ) : ℝ) / 10 ^ 4 * (Real.pi / 180) ∧
      let X := ellipsePosition A (((6703 : ℕ) : ℝ) / 10 ^ 7) (((516416 : ℕ) : ℝ) / 10 ^ 4 * (Real.pi / 180)) (((2474627 : ℕ) : ℝ) / 10 ^ 4 * (Real.pi / 180))
        (((1305360 : ℕ) : ℝ) / 10 ^ 4 * (Real.pi / 180)) E
      |p.position.x.val - X.x| ≤ 95 ∧ |p.position.y.val - X.y| ≤ 95 ∧ |p.position.z.val - X.z| ≤ 95 := by
  obtain ⟨s, p, A, E, h1, h2, hA, hA3, h4, h5, h6, h7⟩ := C112_epoch_f64 hL _ _ _ iss_printed (Or.inl rfl) (Or.inl rfl) (Or.inr (by decide)) t ht ht0
    (iss_low (by norm_num))
  change A ^ 3 * ((1572125391 : ℕ) / 10 ^ 8 * (2 * Real.pi) / 86400) ^ 2 = (398600.5 : ℝ) at hA3
  obtain ⟨A1, A2⟩ := iss_axis hA hA3
  have hε : (0.014 + 0.051 * (((6703 : ℕ) : ℝ) / 10 ^ 7)) * A ≤ 95 := by norm_num; linarith only [A2]
  exact ⟨s, p, A, E, h1, h2, A1, A2, h4, h5.trans hε, h6.trans hε, h7.trans hε⟩

end Sat
