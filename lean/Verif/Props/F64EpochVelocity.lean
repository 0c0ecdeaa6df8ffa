import Verif.Props.F64Epoch
/-!
# C112: the velocity at the epoch

The velocity reported for the epoch is that of the classical elliptic orbit with the printed elements, to a few per cent of the circular speed.
-/

namespace Sat
open F64 hiding sub
open Spec Spec.R3 Spec.SDP Chain

/-- Velocity in an elliptic orbit with semi-major axis `A`, mean motion `n`, eccentricity `e`, inclination `i`, ascending node `Ω`, argument of
perigee `ω`, at the eccentric anomaly `E`: the derivative of `ellipsePosition` when `E - e sin E` grows at the rate `n`. -/
noncomputable def ellipseVelocity (A n e i Ω ω E : ℝ) : Vec3 ℝ :=
  let x := -(A * n * Real.sin E / (1 - e * Real.cos E))
  let y := A * n * Real.sqrt (1 - e ^ 2) * Real.cos E / (1 - e * Real.cos E)
  let x' := x * Real.cos ω - y * Real.sin ω
  let y' := x * Real.sin ω + y * Real.cos ω
  ⟨x' * Real.cos Ω - y' * Real.cos i * Real.sin Ω, x' * Real.sin Ω + y' * Real.cos i * Real.cos Ω, y' * Real.sin i⟩

/-- `ellipseVelocity` is the derivative of `ellipsePosition` along a motion that satisfies Kepler's equation. -/
theorem ellipseVelocity_deriv {A n e i Ω ω t : ℝ} {E : ℝ → ℝ} {M : ℝ} (he : 0 ≤ e ∧ e < 1) (hE : DifferentiableAt ℝ E t)
    (hk : ∀ s, E s - e * Real.sin (E s) = M + n * s) :
    HasDerivAt (fun s => (ellipsePosition A e i Ω ω (E s)).x) (ellipseVelocity A n e i Ω ω (E t)).x t ∧
    HasDerivAt (fun s => (ellipsePosition A e i Ω ω (E s)).y) (ellipseVelocity A n e i Ω ω (E t)).y t ∧
    HasDerivAt (fun s => (ellipsePosition A e i Ω ω (E s)).z) (ellipseVelocity A n e i Ω ω (E t)).z t := by
  have h1 := hE.hasDerivAt
  set D := deriv E t
  have hd : 0 < 1 - e * Real.cos (E t) := by nlinarith only [he.1, he.2, Real.cos_le_one (E t)]
  have h2 : D - e * (Real.cos (E t) * D) = n := by
    have a1 : HasDerivAt (fun s => E s - e * Real.sin (E s)) (D - e * (Real.cos (E t) * D)) t := h1.sub ((h1.sin).const_mul e)
    have a2 : HasDerivAt (fun s => E s - e * Real.sin (E s)) n t := by
      have : (fun s => E s - e * Real.sin (E s)) = fun s => M + n * s := funext hk
      rw [this]
      simpa using ((hasDerivAt_id t).const_mul n).const_add M
    exact a1.unique a2
  have hD : D = n / (1 - e * Real.cos (E t)) := by rw [eq_div_iff hd.ne']; linarith only [h2]
  have dx : HasDerivAt (fun s => A * (Real.cos (E s) - e)) (-(A * n * Real.sin (E t) / (1 - e * Real.cos (E t)))) t := by
    refine (((h1.cos).sub_const e).const_mul A).congr_deriv ?_
    rw [hD]; ring
  have dy : HasDerivAt (fun s => A * Real.sqrt (1 - e ^ 2) * Real.sin (E s)) (A * n * Real.sqrt (1 - e ^ 2) * Real.cos (E t) / (1 - e * Real.cos (E t))) t := by
    refine ((h1.sin).const_mul (A * Real.sqrt (1 - e ^ 2))).congr_deriv ?_
    rw [hD]; ring
  have dx' := (dx.mul_const (Real.cos ω)).sub (dy.mul_const (Real.sin ω))
  have dy' := (dx.mul_const (Real.sin ω)).add (dy.mul_const (Real.cos ω))
  exact ⟨(dx'.mul_const (Real.cos Ω)).sub ((dy'.mul_const (Real.cos i)).mul_const (Real.sin Ω)),
    (dx'.mul_const (Real.sin Ω)).add ((dy'.mul_const (Real.cos i)).mul_const (Real.cos Ω)), dy'.mul_const (Real.sin i)⟩

/-! ## The orbital plane as the complex plane -/

/-- velocity in the plane, in units of the circular speed -/
noncomputable def hodo (z : ℂ) (E : ℝ) : ℂ := (ellipse z (E + Real.pi / 2) + z) * ((1 / (1 - esin z (E + Real.pi / 2)) : ℝ) : ℂ)

theorem esin_turn (z : ℂ) (E : ℝ) : esin z (E + Real.pi / 2) = z.re * Real.cos E + z.im * Real.sin E := by
  unfold esin; rw [Real.sin_add_pi_div_two, Real.cos_add_pi_div_two]; ring

theorem hodo_key {z : ℂ} (hz : Complex.normSq z ≤ 1) (E : ℝ) :
    (⟨esin z E, Real.sqrt (1 - Complex.normSq z)⟩ : ℂ) * ellipse z E = ((1 - esin z (E + Real.pi / 2) : ℝ) : ℂ) * (ellipse z (E + Real.pi / 2) + z) := by
  have qB : Real.sqrt (1 - Complex.normSq z) ^ 2 = 1 - Complex.normSq z := Real.sq_sqrt (by linarith only [hz])
  have B0 : 0 ≤ Real.sqrt (1 - Complex.normSq z) := Real.sqrt_nonneg _
  have hn : Complex.normSq z = esin z (E + Real.pi / 2) ^ 2 + esin z E ^ 2 := by
    rw [esin_turn, Complex.normSq_apply]; unfold esin
    linear_combination -(z.re * z.re + z.im * z.im) * Real.sin_sq_add_cos_sq E
  have hzf : z = dir E * ⟨esin z (E + Real.pi / 2), -esin z E⟩ := by
    rw [esin_turn]; unfold esin dir
    apply Complex.ext
    · simp only [Complex.mul_re]; linear_combination -z.re * Real.sin_sq_add_cos_sq E
    · simp only [Complex.mul_im]; linear_combination -z.im * Real.sin_sq_add_cos_sq E
  have hI : dir (E + Real.pi / 2) = dir E * Complex.I := by
    unfold dir; rw [Real.sin_add_pi_div_two, Real.cos_add_pi_div_two]
    apply Complex.ext
    · simp only [Complex.mul_re, Complex.I_re, Complex.I_im]; ring
    · simp only [Complex.mul_im, Complex.I_re, Complex.I_im]; ring
  unfold ellipse
  rw [hI]
  generalize hB : Real.sqrt (1 - Complex.normSq z) = B at *
  generalize hc : esin z (E + Real.pi / 2) = c at *
  generalize hs : esin z E = s at *
  have q : B ^ 2 = 1 - (c ^ 2 + s ^ 2) := by rw [qB, hn]
  rw [hzf]
  have k1 : dir E - dir E * ⟨c, -s⟩ - Complex.I * (dir E * ⟨c, -s⟩) * ((s / (1 + B) : ℝ) : ℂ) =
      dir E * ⟨1 - c - s * (s / (1 + B)), s - c * (s / (1 + B))⟩ := by
    have : (⟨1 - c - s * (s / (1 + B)), s - c * (s / (1 + B))⟩ : ℂ) = 1 - ⟨c, -s⟩ - Complex.I * ⟨c, -s⟩ * ((s / (1 + B) : ℝ) : ℂ) := by
      generalize s / (1 + B) = g
      apply Complex.ext <;> simp
    rw [this]; ring
  have k2 : dir E * Complex.I - dir E * ⟨c, -s⟩ - Complex.I * (dir E * ⟨c, -s⟩) * ((c / (1 + B) : ℝ) : ℂ) + dir E * ⟨c, -s⟩ =
      dir E * ⟨-(s * (c / (1 + B))), 1 - c * (c / (1 + B))⟩ := by
    have : (⟨-(s * (c / (1 + B))), 1 - c * (c / (1 + B))⟩ : ℂ) = Complex.I - Complex.I * ⟨c, -s⟩ * ((c / (1 + B) : ℝ) : ℂ) := by
      generalize c / (1 + B) = g
      apply Complex.ext <;> simp
    rw [this]; ring
  rw [k1, k2, mul_left_comm, mul_left_comm _ (dir E)]
  congr 1
  apply Complex.ext
  · simp only [Complex.mul_re, Complex.ofReal_re, Complex.ofReal_im]
    field_simp
    linear_combination -s * q
  · simp only [Complex.mul_im, Complex.ofReal_re, Complex.ofReal_im]
    field_simp
    linear_combination (1 - c) * q

theorem hodo_mean (m : Mean) (E : ℝ) (ha : 0 < m.a) (hr : 0 < m.r E) (he : m.eL2 ≤ 1) :
    (⟨m.rdot E, m.rfdot E⟩ : ℂ) * dir (m.u E) = ((ke / Real.sqrt m.a : ℝ) : ℂ) * hodo ⟨m.axN, m.ayN⟩ E := by
  have h1 := ellipse_mean m E hr.ne' he
  have n : Complex.normSq ⟨m.axN, m.ayN⟩ = m.eL2 := by rw [Complex.normSq_mk]; unfold Mean.eL2; ring
  have key := hodo_key (z := ⟨m.axN, m.ayN⟩) (by rw [n]; exact he) E
  have s : esin ⟨m.axN, m.ayN⟩ E = m.esinE E := rfl
  have c : esin ⟨m.axN, m.ayN⟩ (E + Real.pi / 2) = m.ecosE E := by rw [esin_turn]; rfl
  rw [n, s, c] at key
  unfold hodo
  rw [c]
  have hd : 0 < 1 - m.ecosE E := by
    by_contra hcon
    have : m.r E ≤ 0 := by unfold Mean.r; exact mul_nonpos_of_nonneg_of_nonpos ha.le (not_lt.mp hcon)
    linarith only [this, hr]
  have sa : Real.sqrt m.a * Real.sqrt m.a = m.a := Real.mul_self_sqrt ha.le
  have sp : 0 < Real.sqrt m.a := Real.sqrt_pos.mpr ha
  have e1 : m.rdot E = ke / Real.sqrt m.a / (1 - m.ecosE E) * m.esinE E := by
    unfold Mean.rdot Mean.r
    nth_rewrite 2 [← sa]
    field_simp
  have e2 : m.rfdot E = ke / Real.sqrt m.a / (1 - m.ecosE E) * Real.sqrt (1 - m.eL2) := by
    unfold Mean.rfdot Mean.r Mean.pL
    rw [Real.sqrt_mul ha.le]
    nth_rewrite 2 [← sa]
    field_simp
  have e3 : (⟨m.rdot E, m.rfdot E⟩ : ℂ) = ((ke / Real.sqrt m.a / (1 - m.ecosE E) : ℝ) : ℂ) * ⟨m.esinE E, Real.sqrt (1 - m.eL2)⟩ := by
    rw [e1, e2]
    generalize ke / Real.sqrt m.a / (1 - m.ecosE E) = g
    apply Complex.ext <;> simp
  have hdc : ((1 - m.ecosE E : ℝ) : ℂ) ≠ 0 := by exact_mod_cast hd.ne'
  have hac : (m.a : ℂ) ≠ 0 := by exact_mod_cast ha.ne'
  have e4 : dir (m.u E) = ellipse ⟨m.axN, m.ayN⟩ E * ((1 / (1 - m.ecosE E) : ℝ) : ℂ) := by
    have hr2 : (m.r E : ℂ) = (m.a : ℂ) * ((1 - m.ecosE E : ℝ) : ℂ) := by unfold Mean.r; push_cast; ring
    rw [hr2] at h1
    have h2 : ((1 - m.ecosE E : ℝ) : ℂ) * dir (m.u E) = ellipse ⟨m.axN, m.ayN⟩ E := mul_left_cancel₀ hac (by rw [← h1]; ring)
    rw [← h2, Complex.ofReal_div, Complex.ofReal_one]
    field_simp
  rw [e3, e4]
  have e5 : ((ke / Real.sqrt m.a / (1 - m.ecosE E) : ℝ) : ℂ) * ⟨m.esinE E, Real.sqrt (1 - m.eL2)⟩ * (ellipse ⟨m.axN, m.ayN⟩ E * ((1 / (1 - m.ecosE E) : ℝ) : ℂ)) =
      ((ke / Real.sqrt m.a / (1 - m.ecosE E) * (1 / (1 - m.ecosE E)) : ℝ) : ℂ) * (⟨m.esinE E, Real.sqrt (1 - m.eL2)⟩ * ellipse ⟨m.axN, m.ayN⟩ E) := by
    push_cast; ring
  rw [e5, key]
  have e6 : ke / Real.sqrt m.a / (1 - m.ecosE E) * (1 / (1 - m.ecosE E)) * (1 - m.ecosE E) = ke / Real.sqrt m.a * (1 / (1 - m.ecosE E)) := by field_simp
  rw [← mul_assoc, ← Complex.ofReal_mul, e6, Complex.ofReal_mul]
  ring

theorem hodo_classical {e : ℝ} (he : 0 ≤ e ∧ e ≤ 0.43) (ω E : ℝ) :
    hodo ((e : ℂ) * dir ω) (E + ω) = dir ω * ⟨-(Real.sin E / (1 - e * Real.cos E)), Real.sqrt (1 - e ^ 2) * Real.cos E / (1 - e * Real.cos E)⟩ ∧
      ‖ellipse ((e : ℂ) * dir ω) (E + ω + Real.pi / 2) + (e : ℂ) * dir ω‖ ≤ 1 ∧ esin ((e : ℂ) * dir ω) (E + ω + Real.pi / 2) = e * Real.cos E ∧
      ‖hodo ((e : ℂ) * dir ω) (E + ω)‖ ≤ 1 + 1.755 * e := by
  have he1 : e < 1 := lt_of_le_of_lt he.2 (by norm_num)
  have h := (ellipse_classical ⟨he.1, he1⟩ ω (E + Real.pi / 2)).1
  rw [show E + Real.pi / 2 + ω = E + ω + Real.pi / 2 by ring, Real.cos_add_pi_div_two, Real.sin_add_pi_div_two] at h
  have hD : ellipse ((e : ℂ) * dir ω) (E + ω + Real.pi / 2) + (e : ℂ) * dir ω = dir ω * ⟨-Real.sin E, Real.sqrt (1 - e ^ 2) * Real.cos E⟩ := by
    rw [h]
    have : (⟨-Real.sin E, Real.sqrt (1 - e ^ 2) * Real.cos E⟩ : ℂ) = ⟨-Real.sin E - e, Real.sqrt (1 - e ^ 2) * Real.cos E⟩ + (e : ℂ) := by
      apply Complex.ext <;> simp
    rw [this]; ring
  have hs : esin ((e : ℂ) * dir ω) (E + ω + Real.pi / 2) = e * Real.cos E := by
    rw [esin_turn]; unfold dir
    simp only [Complex.mul_re, Complex.mul_im, Complex.ofReal_re, Complex.ofReal_im, Real.sin_add, Real.cos_add]
    linear_combination e * Real.cos E * Real.sin_sq_add_cos_sq ω
  have hn : ‖ellipse ((e : ℂ) * dir ω) (E + ω + Real.pi / 2) + (e : ℂ) * dir ω‖ ≤ 1 := by
    rw [hD, norm_mul, dir_norm, one_mul, Complex.norm_def]
    refine Real.sqrt_le_iff.mpr ⟨zero_le_one, ?_⟩
    rw [Complex.normSq_mk]
    have B2 : Real.sqrt (1 - e ^ 2) ^ 2 = 1 - e ^ 2 := Real.sq_sqrt (by nlinarith only [he.1, he1])
    have e3 : -Real.sin E * -Real.sin E + Real.sqrt (1 - e ^ 2) * Real.cos E * (Real.sqrt (1 - e ^ 2) * Real.cos E) = 1 - (e * Real.cos E) ^ 2 := by
      linear_combination Real.cos E ^ 2 * B2 + Real.sin_sq_add_cos_sq E
    rw [e3]
    have := sq_nonneg (e * Real.cos E)
    linarith only [this]
  have hec : e * Real.cos E ≤ e := mul_le_of_le_one_right he.1 (Real.cos_le_one E)
  have hd : 0 < 1 - e * Real.cos E := by linarith only [hec, he1]
  refine ⟨?_, hn, hs, ?_⟩
  · unfold hodo
    rw [hD, hs, mul_assoc]
    congr 1
    apply Complex.ext
    · simp only [Complex.mul_re, Complex.ofReal_re, Complex.ofReal_im]; ring
    · simp only [Complex.mul_im, Complex.ofReal_re, Complex.ofReal_im]; ring
  · unfold hodo
    rw [norm_mul, hs, Complex.norm_real, Real.norm_eq_abs, abs_of_pos (by positivity)]
    have h1 : 1 / (1 - e * Real.cos E) ≤ 1 + 1.755 * e := by
      rw [div_le_iff₀ hd]
      have h2 : (1 + 1.755 * e) * (1 - e) ≤ (1 + 1.755 * e) * (1 - e * Real.cos E) := mul_le_mul_of_nonneg_left (by linarith only [hec]) (by linarith only [he.1])
      refine le_trans ?_ h2
      norm_num at he ⊢
      nlinarith only [he.1, he.2]
    calc _ ≤ 1 * (1 / (1 - e * Real.cos E)) := mul_le_mul_of_nonneg_right hn (by positivity)
      _ ≤ _ := by rw [one_mul]; exact h1

theorem hodo_close {z w : ℂ} {E F : ℝ} (hz : ‖z‖ ≤ 0.45) (hw : ‖w‖ ≤ 0.43) (h1 : ‖ellipse w (F + Real.pi / 2) + w‖ ≤ 1) :
    ‖hodo z E - hodo w F‖ ≤ 8 * ‖z - w‖ + 3.5 * |E - F| := by
  have k1 := ellipse_close (z := z) (w := w) (E := E + Real.pi / 2) (F := F + Real.pi / 2) hz (hw.trans (by norm_num))
  have k2 := esin_close z w (E + Real.pi / 2) (F + Real.pi / 2)
  rw [show E + Real.pi / 2 - (F + Real.pi / 2) = E - F by ring] at k1 k2
  have c1 := (abs_le.mp ((esin_abs z (E + Real.pi / 2)).trans hz)).2
  have c2 := (abs_le.mp ((esin_abs w (F + Real.pi / 2)).trans hw)).2
  unfold hodo
  set P := ellipse z (E + Real.pi / 2) with hP
  set R := ellipse w (F + Real.pi / 2) with hR
  set c := esin z (E + Real.pi / 2) with hc
  set c' := esin w (F + Real.pi / 2) with hc'
  set d := ‖z - w‖ with hd
  set δ := |E - F| with hδ
  have d0 : 0 ≤ d := norm_nonneg _
  have δ0 : 0 ≤ δ := abs_nonneg _
  have q1 : 0.55 ≤ 1 - c := by norm_num at c1 ⊢; linarith only [c1]
  have q2 : 0.57 ≤ 1 - c' := by norm_num at c2 ⊢; linarith only [c2]
  have p1 : 0 < 1 - c := lt_of_lt_of_le (by norm_num) q1
  have p2 : 0 < 1 - c' := lt_of_lt_of_le (by norm_num) q2
  have i1 : 1 / (1 - c) ≤ 1.8182 := by rw [div_le_iff₀ p1]; norm_num at q1 ⊢; linarith only [q1]
  have e : (P + z) * ((1 / (1 - c) : ℝ) : ℂ) - (R + w) * ((1 / (1 - c') : ℝ) : ℂ) =
      ((P - R) + (z - w)) * ((1 / (1 - c) : ℝ) : ℂ) + (R + w) * (((c - c') / ((1 - c) * (1 - c')) : ℝ) : ℂ) := by
    have : (c - c') / ((1 - c) * (1 - c')) = 1 / (1 - c) - 1 / (1 - c') := by field_simp; ring
    rw [this]; push_cast; ring
  rw [e]
  have t1 : ‖((P - R) + (z - w)) * ((1 / (1 - c) : ℝ) : ℂ)‖ ≤ (2.6 * d + 1.15 * δ) * 1.8182 := by
    rw [norm_mul, Complex.norm_real, Real.norm_eq_abs, abs_of_pos (by positivity)]
    refine mul_le_mul ?_ i1 (by positivity) (by positivity)
    refine (norm_add_le _ _).trans ?_
    norm_num at k1 ⊢; linarith only [k1]
  have t2 : ‖(R + w) * (((c - c') / ((1 - c) * (1 - c')) : ℝ) : ℂ)‖ ≤ 1 * ((d + 0.43 * δ) * 3.19) := by
    rw [norm_mul, Complex.norm_real, Real.norm_eq_abs]
    refine mul_le_mul h1 ?_ (abs_nonneg _) zero_le_one
    rw [abs_div, abs_of_pos (mul_pos p1 p2), div_le_iff₀ (mul_pos p1 p2)]
    have k3 : |c - c'| ≤ d + 0.43 * δ := k2.trans (add_le_add le_rfl (mul_le_mul_of_nonneg_right hw δ0))
    have k4 : 0.55 * 0.57 ≤ (1 - c) * (1 - c') := mul_le_mul q1 q2 (by norm_num) p1.le
    have k5 : (d + 0.43 * δ) * 3.19 * (0.55 * 0.57) ≤ (d + 0.43 * δ) * 3.19 * ((1 - c) * (1 - c')) := mul_le_mul_of_nonneg_left k4 (by positivity)
    refine k3.trans (le_trans ?_ k5)
    norm_num; linarith only [d0, δ0]
  refine (norm_add_le _ _).trans ((add_le_add t1 t2).trans ?_)
  norm_num; linarith only [d0, δ0]

/-! ## From the plane to space -/

theorem place_velocity (m : Mean) (E : ℝ) :
    vec (m.velocityKmS E) = place (((kmPerRadius / 60 : ℝ) : ℂ) * ((⟨m.rdotk E, m.rfdotk E⟩ : ℂ) * dir (m.uk E))) (m.Ωk E) (m.ik E) := by
  unfold vec place dir Mean.velocityKmS Mean.Uvec Mean.Vvec
  simp only [Complex.mul_re, Complex.mul_im, Complex.ofReal_re, Complex.ofReal_im, Matrix.cons_val_zero, Matrix.cons_val_one, Matrix.cons_val]
  congr 1 <;> ring

theorem place_hodo {A n e i Ω ω E : ℝ} (he : 0 ≤ e ∧ e ≤ 0.43) :
    ellipseVelocity A n e i Ω ω E = place (((A * n : ℝ) : ℂ) * hodo ((e : ℂ) * dir ω) (E + ω)) Ω i := by
  rw [(hodo_classical he ω E).1]
  unfold ellipseVelocity place dir
  simp only [Complex.mul_re, Complex.mul_im, Complex.ofReal_re, Complex.ofReal_im]
  congr 1 <;> ring

/-- eccentricity vector and eccentric longitude of the theory at the epoch against the classical ones -/
theorem vector_epoch {q : Orbit} (Q : Quiet q 0) (node F : ℝ) {k : ℝ} (hF : F - q.e * Real.sin F = q.anom) (hk : |(q.mean node 0).kepler k| ≤ 1.45e-12) :
    ‖(⟨(q.mean node 0).axN, (q.mean node 0).ayN⟩ : ℂ) - (q.e : ℂ) * dir q.argp‖ ≤ 0.001172 ∧ |k - (F + q.argp)| ≤ 0.0021 + 0.0355 * q.e ∧
      ‖(⟨(q.mean node 0).axN, (q.mean node 0).ayN⟩ : ℂ)‖ ≤ 0.45 ∧ (q.mean node 0).a = q.a := by
  obtain ⟨g1, g2, g3, g4, -⟩ := quiet_numbers Q node
  have FA := Q.fair node
  obtain ⟨e0, e1⟩ := Q.ecc
  have hec := FA.ecc
  have hll := longL_abs Q.incl
  have hay := longAy_abs q.inc
  have hz : ‖(⟨(q.mean node 0).axN, (q.mean node 0).ayN⟩ : ℂ)‖ ≤ 0.45 := by
    rw [Complex.norm_def]
    refine Real.sqrt_le_iff.mpr ⟨by norm_num, ?_⟩
    rw [Complex.normSq_mk]
    unfold Mean.eL2 at hec
    nlinarith only [hec]
  have hw : ‖(q.e : ℂ) * dir q.argp‖ = q.e := by rw [norm_mul, dir_norm, mul_one, Complex.norm_real, Real.norm_eq_abs, abs_of_nonneg e0]
  have hm := mean_epoch q node
  set m := q.mean node 0 with hmd
  have ma : m.a = q.a := by rw [hm]
  have me : m.e = max q.e (1 / 10 ^ 6) := by rw [hm]
  have mw : m.ω = q.argp := by rw [hm]
  have mi : m.i = q.inc := by rw [hm]
  have mU : m.U = q.anom + q.argp + longL q.inc / (m.a * (1 - m.e ^ 2)) * m.axN := by
    unfold Mean.U
    rw [mi, show m.L = q.anom + q.argp + node by rw [hm], show m.Ω = node by rw [hm]]; ring
  have hme : |m.e - q.e| ≤ 0.000001 := by
    rw [me]
    rcases le_total q.e (1 / 10 ^ 6) with h | h
    · rw [max_eq_right h, abs_le]; constructor <;> norm_num at h ⊢ <;> linarith only [h, e0]
    · rw [max_eq_left h, sub_self, abs_zero]; norm_num
  have hp0 : 0 < m.a * (1 - m.e ^ 2) := lt_of_lt_of_le one_pos g4
  -- the eccentricity vector
  set z : ℂ := ⟨m.axN, m.ayN⟩ with hzd
  set w : ℂ := (q.e : ℂ) * dir q.argp with hwd
  have hzw : ‖z - w‖ ≤ 0.001171 + 0.000001 := by
    have e : z - w = ((m.e - q.e : ℝ) : ℂ) * dir q.argp + ((longAy q.inc / (m.a * (1 - m.e ^ 2)) : ℝ) : ℂ) * Complex.I := by
      rw [hzd, hwd]
      unfold Mean.axN Mean.ayN dir
      rw [mw, mi]
      apply Complex.ext
      · simp only [Complex.sub_re, Complex.add_re, Complex.mul_re, Complex.ofReal_re, Complex.ofReal_im, Complex.I_re, Complex.I_im]; ring
      · simp only [Complex.sub_im, Complex.add_im, Complex.mul_im, Complex.ofReal_re, Complex.ofReal_im, Complex.I_re, Complex.I_im]; ring
    rw [e]
    refine (norm_add_le _ _).trans ?_
    rw [norm_mul, norm_mul, dir_norm, Complex.norm_I, mul_one, mul_one, Complex.norm_real, Complex.norm_real, Real.norm_eq_abs, Real.norm_eq_abs, add_comm]
    refine add_le_add ?_ hme
    rw [abs_div, abs_of_pos hp0, div_le_iff₀ hp0]
    norm_num at hay ⊢; linarith only [hay, g4]
  -- the eccentric longitude
  have hUV : |m.U - (q.anom + q.argp)| ≤ 0.0202 * (q.e + 0.000001) := by
    rw [mU, add_sub_cancel_left, abs_mul]
    refine mul_le_mul ?_ ?_ (abs_nonneg _) (by norm_num)
    · rw [abs_div, abs_of_pos hp0, div_le_iff₀ hp0]
      norm_num at hll ⊢; linarith only [hll, g4]
    · unfold Mean.axN
      rw [abs_mul, abs_of_nonneg g1]
      have := (abs_le.mp hme).2
      exact (mul_le_of_le_one_right g1 (Real.abs_cos_le_one _)).trans (by linarith only [this])
  have hE : k = m.U + esin z k - m.kepler k := by
    rw [hzd]; unfold esin Mean.kepler; ring
  have hs : esin w (F + q.argp) = q.e * Real.sin F := by
    rw [hwd]; unfold esin dir
    simp only [Complex.mul_re, Complex.mul_im, Complex.ofReal_re, Complex.ofReal_im, Real.sin_add, Real.cos_add]
    linear_combination q.e * Real.sin F * Real.sin_sq_add_cos_sq q.argp
  have hV : F + q.argp = (q.anom + q.argp) + esin w (F + q.argp) := by rw [hs]; linarith only [hF]
  have hEF := anomaly_close (e := q.e) hw.le hE hV
  have hδ : |k - (F + q.argp)| ≤ 0.0021 + 0.0355 * q.e := by
    have : 0.57 * |k - (F + q.argp)| ≤ (1 - q.e) * |k - (F + q.argp)| := mul_le_mul_of_nonneg_right (by norm_num at e1 ⊢; linarith only [e1]) (abs_nonneg _)
    norm_num at this hEF hUV hzw hk ⊢; linarith only [this, hEF, hUV, hzw, hk, e0]
  exact ⟨hzw.trans (by norm_num), hδ, hz, ma⟩

theorem plane_velocity {q : Orbit} (Q : Quiet q 0) (node S F : ℝ) {k : ℝ} (hS : 0 < S)
    (b1 : 0.9919 * S ≤ ke / Real.sqrt q.a * (6378.137 / 60)) (b2 : ke / Real.sqrt q.a * (6378.137 / 60) ≤ 1.0081 * S)
    (hF : F - q.e * Real.sin F = q.anom) (hk : |(q.mean node 0).kepler k| ≤ 1.45e-12) :
    ‖((kmPerRadius / 60 : ℝ) : ℂ) * ((⟨(q.mean node 0).rdotk k, (q.mean node 0).rfdotk k⟩ : ℂ) * dir ((q.mean node 0).uk k)) -
      (S : ℂ) * hodo ((q.e : ℂ) * dir q.argp) (F + q.argp)‖ ≤ (0.0281 + 0.1411 * q.e) * S := by
  obtain ⟨v1, v2, v3, ma⟩ := vector_epoch Q node F hF hk
  obtain ⟨g1, g2, g3, g4, -⟩ := quiet_numbers Q node
  have hu := uk_near (Q.fair node) k
  obtain ⟨p1, p2, p3, -, p5, -, -, p8, p9⟩ := perturbation_bounds (q.mean node 0) k ⟨g1, g2.trans (by norm_num)⟩ (le_trans (by norm_num) g3)
  obtain ⟨e0, e1⟩ := Q.ecc
  have hw : ‖(q.e : ℂ) * dir q.argp‖ = q.e := by rw [norm_mul, dir_norm, mul_one, Complex.norm_real, Real.norm_eq_abs, abs_of_nonneg e0]
  have ha0 : 0 < (q.mean node 0).a := lt_of_lt_of_le one_pos p1
  have hH := hodo_mean (q.mean node 0) k ha0 (lt_of_lt_of_le (by norm_num) p3) p5
  obtain ⟨-, hD, -, hn⟩ := hodo_classical (e := q.e) ⟨e0, e1⟩ q.argp F
  have hcl := hodo_close (E := k) v3 (hw.le.trans e1) hD
  set m := q.mean node 0 with hmd
  set z : ℂ := ⟨m.axN, m.ayN⟩ with hzd
  set w : ℂ := (q.e : ℂ) * dir q.argp with hwd
  have hcl2 : ‖hodo z k - hodo w (F + q.argp)‖ ≤ 0.01673 + 0.12426 * q.e := by norm_num at hcl v1 v2 ⊢; linarith only [hcl, v1, v2, e0]
  -- short-period terms
  set N := ke / Real.sqrt m.a with hN
  have N0 : 0 < N := div_pos ke_pos (Real.sqrt_pos.mpr ha0)
  have hmn : m.n ≤ N := by
    unfold Mean.n
    rw [hN]
    refine div_le_div_of_nonneg_left ke_pos.le (Real.sqrt_pos.mpr ha0) ?_
    rw [Real.sqrt_eq_rpow]
    exact Real.rpow_le_rpow_of_exponent_le p1 (by norm_num)
  have hmn0 : 0 < m.n := div_pos ke_pos (Real.rpow_pos_of_pos ha0 _)
  have hsm : R3.k2 * m.n / m.pL ≤ 0.000543 * N := by
    rw [div_le_iff₀ (lt_of_lt_of_le (by norm_num) p2)]
    have h1 : R3.k2 ≤ 0.00054132 := by unfold R3.k2 R3.j2; norm_num
    calc R3.k2 * m.n ≤ 0.00054132 * N := mul_le_mul h1 hmn hmn0.le (by norm_num)
      _ ≤ 0.000543 * N * 0.998 := by norm_num; linarith only [N0]
      _ ≤ _ := mul_le_mul_of_nonneg_left p2 (by positivity)
  have hHn : ‖hodo z k‖ ≤ 1.017 + 1.88 * q.e := by
    have := norm_le_norm_add_norm_sub' (hodo z k) (hodo w (F + q.argp))
    norm_num at this hn hcl2 ⊢; linarith only [this, hn, hcl2, e0]
  have hV : ‖(⟨m.rdot k, m.rfdot k⟩ : ℂ)‖ ≤ N * (1.017 + 1.88 * q.e) := by
    have : ‖(⟨m.rdot k, m.rfdot k⟩ : ℂ) * dir (m.u k)‖ = ‖(⟨m.rdot k, m.rfdot k⟩ : ℂ)‖ := by rw [norm_mul, dir_norm, mul_one]
    rw [← this, hH, norm_mul, Complex.norm_real, Real.norm_eq_abs, abs_of_pos N0]
    exact mul_le_mul_of_nonneg_left hHn N0.le
  have t1 : ‖(⟨m.rdotk k, m.rfdotk k⟩ : ℂ) * dir (m.uk k) - (⟨m.rdot k, m.rfdot k⟩ : ℂ) * dir (m.u k)‖ ≤ N * (0.003006 + 0.001542 * q.e) := by
    have e : (⟨m.rdotk k, m.rfdotk k⟩ : ℂ) * dir (m.uk k) - (⟨m.rdot k, m.rfdot k⟩ : ℂ) * dir (m.u k) =
        (⟨m.rdotk k - m.rdot k, m.rfdotk k - m.rfdot k⟩ : ℂ) * dir (m.uk k) + (⟨m.rdot k, m.rfdot k⟩ : ℂ) * (dir (m.uk k) - dir (m.u k)) := by
      have : (⟨m.rdotk k - m.rdot k, m.rfdotk k - m.rfdot k⟩ : ℂ) = (⟨m.rdotk k, m.rfdotk k⟩ : ℂ) - ⟨m.rdot k, m.rfdot k⟩ := rfl
      rw [this]; ring
    rw [e]
    refine (norm_add_le _ _).trans ?_
    rw [norm_mul, norm_mul, dir_norm, mul_one]
    have n1 := Complex.norm_le_abs_re_add_abs_im (⟨m.rdotk k - m.rdot k, m.rfdotk k - m.rfdot k⟩ : ℂ)
    have n2 : ‖(⟨m.rdot k, m.rfdot k⟩ : ℂ)‖ * ‖dir (m.uk k) - dir (m.u k)‖ ≤ N * (1.017 + 1.88 * q.e) * 0.00082 :=
      mul_le_mul hV ((dir_sub_le _ _).trans hu) (norm_nonneg _) (by positivity)
    refine (add_le_add (n1.trans (add_le_add p8 p9)) n2).trans ?_
    have s3 : 0 ≤ N * q.e := by positivity
    norm_num at hsm ⊢; linarith only [hsm, s3, N0]
  -- the scale
  set B := N * (6378.137 / 60) with hB
  have b3 : 0.9919 * S ≤ B := by rw [hB, hN, ma]; exact b1
  have b4 : B ≤ 1.0081 * S := by rw [hB, hN, ma]; exact b2
  have hB0 : 0 < B := lt_of_lt_of_le (by positivity) b3
  have e : ((kmPerRadius / 60 : ℝ) : ℂ) * ((⟨m.rdotk k, m.rfdotk k⟩ : ℂ) * dir (m.uk k)) - (S : ℂ) * hodo w (F + q.argp) =
      ((kmPerRadius / 60 : ℝ) : ℂ) * ((⟨m.rdotk k, m.rfdotk k⟩ : ℂ) * dir (m.uk k) - (⟨m.rdot k, m.rfdot k⟩ : ℂ) * dir (m.u k)) +
        (B : ℂ) * (hodo z k - hodo w (F + q.argp)) + ((B - S : ℝ) : ℂ) * hodo w (F + q.argp) := by
    rw [hH, hB, show (kmPerRadius : ℝ) = 6378.137 from rfl]; push_cast; ring
  rw [e]
  have u1 : ‖((kmPerRadius / 60 : ℝ) : ℂ) * ((⟨m.rdotk k, m.rfdotk k⟩ : ℂ) * dir (m.uk k) - (⟨m.rdot k, m.rfdot k⟩ : ℂ) * dir (m.u k))‖ ≤
      1.0081 * S * (0.003006 + 0.001542 * q.e) := by
    rw [norm_mul, Complex.norm_real, Real.norm_eq_abs, show (kmPerRadius : ℝ) = 6378.137 from rfl, abs_of_pos (by norm_num)]
    calc _ ≤ 6378.137 / 60 * (N * (0.003006 + 0.001542 * q.e)) := mul_le_mul_of_nonneg_left t1 (by norm_num)
      _ = B * (0.003006 + 0.001542 * q.e) := by rw [hB]; ring
      _ ≤ _ := mul_le_mul_of_nonneg_right b4 (by positivity)
  have u2 : ‖(B : ℂ) * (hodo z k - hodo w (F + q.argp))‖ ≤ 1.0081 * S * (0.01673 + 0.12426 * q.e) := by
    rw [norm_mul, Complex.norm_real, Real.norm_eq_abs, abs_of_pos hB0]
    exact mul_le_mul b4 hcl2 (norm_nonneg _) (by positivity)
  have u3 : ‖((B - S : ℝ) : ℂ) * hodo w (F + q.argp)‖ ≤ 0.0081 * S * (1 + 1.755 * q.e) := by
    rw [norm_mul, Complex.norm_real, Real.norm_eq_abs]
    refine mul_le_mul ?_ hn (norm_nonneg _) (by positivity)
    rw [abs_le]; constructor <;> norm_num at b3 b4 ⊢ <;> linarith only [b3, b4]
  refine (norm_add_le _ _).trans ((add_le_add ((norm_add_le _ _).trans (add_le_add u1 u2)) u3).trans ?_)
  have s3 : 0 ≤ S * q.e := by positivity
  norm_num
  nlinarith only [s3, hS]

variable [Libm]

/-- **C112**, velocity: at the epoch, the velocity reported for a near-earth satellite is the classical one for the printed elements, up to
`0.031 + 0.146 e` of the circular speed in each component. -/
theorem C112_epoch_velocity_f64 (hL : Libm.Faithful) (l1 l2 : Str) (v : Tle) (h : Printed l1 l2 v) (hpos : v.nddotNeg = false ∨ v.nddotMant = 0)
    (hnd : Normal v.nddotMant) (hb : Normal v.bstarMant) (t : F64) (ht : t.Fin) (ht0 : t.val = 0) (hl : LowTle v 0) :
    ∃ (s : Satrec F64) (p : SGP4Result F64) (A E : ℝ), twoline2satrec l1 l2 = .ok s ∧ (sgp4 s t).map Prod.snd = some (.ok p) ∧
      0 < A ∧ A ^ 3 * ((v.noE8 : ℝ) / 10 ^ 8 * (2 * Real.pi) / 86400) ^ 2 = 398600.5 ∧
      E - (v.eccE7 : ℝ) / 10 ^ 7 * Real.sin E = (v.moE4 : ℝ) / 10 ^ 4 * (Real.pi / 180) ∧
      let n := (v.noE8 : ℝ) / 10 ^ 8 * (2 * Real.pi) / 86400
      let V := ellipseVelocity A n ((v.eccE7 : ℝ) / 10 ^ 7) ((v.inclE4 : ℝ) / 10 ^ 4 * (Real.pi / 180)) ((v.nodeE4 : ℝ) / 10 ^ 4 * (Real.pi / 180))
        ((v.argpE4 : ℝ) / 10 ^ 4 * (Real.pi / 180)) E
      let ε := (0.031 + 0.146 * ((v.eccE7 : ℝ) / 10 ^ 7)) * (A * n)
      |p.velocity.x.val - V.x| ≤ ε ∧ |p.velocity.y.val - V.y| ≤ ε ∧ |p.velocity.z.val - V.z| ≤ ε := by
  obtain ⟨s, p, hs, hp, k, -, k2, k3, c1, c2⟩ := C85_text_to_state_f64 hL l1 l2 v h hpos hnd hb t ht (by rw [ht0]; exact hl)
  have Q := quiet_low hL h hpos hnd hb hl
  rw [ht0] at k2 k3 c2
  obtain ⟨-, hker, -⟩ := C65_kepler_converges _ (Q.fair (tleNode v)).ecc k k2 k3
  obtain ⟨n1, n2, n3⟩ := tle_motion_lower hl
  have n4 := tle_motion_upper hl
  have hqn := Q.mot
  have hcube : (tleOrbit v).a ^ 3 = (ke / (tleOrbit v).n) ^ 2 := axis_cubed hqn
  have ha0 : 0 < (tleOrbit v).a := by
    show 0 < (ke / (tleOrbit v).n) ^ (2 / 3 : ℝ)
    exact Real.rpow_pos_of_pos (div_pos ke_pos hqn) _
  obtain ⟨q1, q2⟩ := cube_bounds n2 hqn hcube (by norm_num at n1 ⊢; linarith only [n1, n2]) (by norm_num at n4 ⊢; linarith only [n4, n2])
  obtain ⟨A, hA, hA3⟩ := exists_axis n2
  obtain ⟨b1, b2⟩ := third_law ha0 n2 hA hA3 q1 q2
  obtain ⟨e0, e1⟩ := Q.ecc
  obtain ⟨E, hE⟩ : ∃ E, E - (tleOrbit v).e * Real.sin E = (tleOrbit v).anom := by
    obtain ⟨E, hE⟩ := exists_root { a := 1, e := (tleOrbit v).e, ω := 0, Ω := 0, L := (tleOrbit v).anom, i := 0 }
    refine ⟨E, ?_⟩
    unfold Mean.kepler Mean.U Mean.ayN Mean.axN longAy longL at hE
    simp only [Real.sin_zero, Real.cos_zero, mul_zero, zero_div, zero_mul, add_zero, sub_zero, mul_one] at hE
    linarith only [hE]
  -- the circular speed
  have hsp : ke / Real.sqrt (tleOrbit v).a = (tleOrbit v).n * (tleOrbit v).a := by
    have hsa : 0 < Real.sqrt (tleOrbit v).a := Real.sqrt_pos.mpr ha0
    have s2 : Real.sqrt (tleOrbit v).a ^ 2 = (tleOrbit v).a := Real.sq_sqrt ha0.le
    rw [div_eq_iff hsa.ne', ← pow_left_inj₀ ke_pos.le (by positivity) (show 2 ≠ 0 by norm_num), mul_pow, s2]
    have : ke ^ 2 = (tleOrbit v).a ^ 3 * (tleOrbit v).n ^ 2 := by rw [hcube]; field_simp
    rw [this]; ring
  have hS : 0 < A * (tleMotion v / 60) := by positivity
  have hS1 : ke / Real.sqrt (tleOrbit v).a * (6378.137 / 60) = (tleOrbit v).n * ((tleOrbit v).a * 6378.137) / 60 := by rw [hsp]; ring
  have w1 : 0.9919 * (A * (tleMotion v / 60)) ≤ ke / Real.sqrt (tleOrbit v).a * (6378.137 / 60) := by
    rw [hS1]
    have : 0.996 * tleMotion v * (0.996 * A) ≤ (tleOrbit v).n * ((tleOrbit v).a * 6378.137) := mul_le_mul n1 b1 (by positivity) hqn.le
    have p0 : 0 < A * tleMotion v := by positivity
    norm_num at this ⊢; linarith only [this, p0]
  have w2 : ke / Real.sqrt (tleOrbit v).a * (6378.137 / 60) ≤ 1.0081 * (A * (tleMotion v / 60)) := by
    rw [hS1]
    have : (tleOrbit v).n * ((tleOrbit v).a * 6378.137) ≤ 1.0035 * tleMotion v * (1.0045 * A) := mul_le_mul n4 b2 (by positivity) (by positivity)
    have p0 : 0 < A * tleMotion v := by positivity
    norm_num at this ⊢; linarith only [this, p0]
  have hpl := plane_velocity Q (tleNode v) (A * (tleMotion v / 60)) E hS w1 w2 hE hker
  have hik := ik_near (Q.fair (tleNode v)) (((tleOrbit v).mean (tleNode v) 0).newton k)
  have hΩk := Ωk_near (Q.fair (tleNode v)) (((tleOrbit v).mean (tleNode v) 0).newton k)
  have hm := mean_epoch (tleOrbit v) (tleNode v)
  have hme : 1 ≤ (tleOrbit v).a := by
    have := Q.per
    have h2 : (tleOrbit v).a * (1 - (tleOrbit v).e) ≤ (tleOrbit v).a * 1 := mul_le_mul_of_nonneg_left (by linarith only [e0]) ha0.le
    norm_num at this; linarith only [this, h2]
  have mΩ : ((tleOrbit v).mean (tleNode v) 0).Ω = (v.nodeE4 : ℝ) / 10 ^ 4 * (Real.pi / 180) := by rw [hm]; rfl
  have mi : ((tleOrbit v).mean (tleNode v) 0).i = (v.inclE4 : ℝ) / 10 ^ 4 * (Real.pi / 180) := rfl
  rw [mΩ] at hΩk
  rw [mi] at hik
  rw [place_velocity] at c2
  set Z := ((kmPerRadius / 60 : ℝ) : ℂ) * ((⟨((tleOrbit v).mean (tleNode v) 0).rdotk (((tleOrbit v).mean (tleNode v) 0).newton k),
    ((tleOrbit v).mean (tleNode v) 0).rfdotk (((tleOrbit v).mean (tleNode v) 0).newton k)⟩ : ℂ) *
    dir (((tleOrbit v).mean (tleNode v) 0).uk (((tleOrbit v).mean (tleNode v) 0).newton k))) with hZ
  set W := ((A * (tleMotion v / 60) : ℝ) : ℂ) * hodo (((tleOrbit v).e : ℂ) * dir (tleOrbit v).argp) (E + (tleOrbit v).argp) with hWd
  have hcl := place_close (Z := Z) (W := W) hΩk hik
  rw [hWd, ← place_hodo ⟨e0, e1⟩, ← hWd] at hcl
  obtain ⟨-, -, -, hn⟩ := hodo_classical (e := (tleOrbit v).e) ⟨e0, e1⟩ (tleOrbit v).argp E
  have hW : ‖W‖ ≤ A * (tleMotion v / 60) * (1 + 1.755 * (tleOrbit v).e) := by
    rw [hWd, norm_mul, Complex.norm_real, Real.norm_eq_abs, abs_of_pos hS]
    exact mul_le_mul_of_nonneg_left hn hS.le
  have hAlo : 6000 ≤ A := by norm_num at b2; linarith only [b2, hme]
  have hSlo : 2 ≤ A * (tleMotion v / 60) := by
    have h1 : (645000000 : ℝ) ≤ v.noE8 := by exact_mod_cast hl.mot_lo
    have hp := Real.pi_gt_three
    have h2 : 0.02 ≤ tleMotion v := by
      unfold tleMotion
      calc (0.02 : ℝ) ≤ 645000000 / 10 ^ 8 * (2 * 3) / 1440 := by norm_num
        _ ≤ _ := by gcongr
    calc (2 : ℝ) = 6000 * (0.02 / 60) := by norm_num
      _ ≤ _ := by gcongr
  have fin : ∀ {x y u : ℝ}, |x - y| ≤ 2 / 10 ^ 6 → |y - u| ≤ ‖Z - W‖ + ‖W‖ * (2 * 0.00082 + 0.00041) →
      |x - u| ≤ (0.031 + 0.146 * (tleOrbit v).e) * (A * (tleMotion v / 60)) := by
    intro x y u g1 g2
    have g3 := (abs_sub_le x y u).trans (add_le_add g1 g2)
    refine g3.trans ((add_le_add le_rfl (add_le_add hpl (mul_le_mul_of_nonneg_right hW (by norm_num)))).trans ?_)
    have s3 : 0 ≤ A * (tleMotion v / 60) * (tleOrbit v).e := mul_nonneg hS.le e0
    generalize A * (tleMotion v / 60) = S at *
    norm_num
    nlinarith only [s3, hSlo]
  have en : tleMotion v / 60 = (v.noE8 : ℝ) / 10 ^ 8 * (2 * Real.pi) / 86400 := by unfold tleMotion; ring
  rw [en] at fin hcl hA3
  exact ⟨s, p, A, E, hs, hp, hA, hA3, hE, fin c2.1.2 hcl.1, fin c2.2.1.2 hcl.2.1, fin c2.2.2.2 hcl.2.2⟩

/-- The International Space Station: at the epoch, each component of the velocity is within 0.25 km/s of that on the ellipse with the printed elements. -/
theorem iss_epoch_velocity (hL : Libm.Faithful) (t : F64) (ht : t.Fin) (ht0 : t.val = 0) :
    ∃ (s : Satrec F64) (p : SGP4Result F64) (A E n : ℝ),
      twoline2satrec "1 25544U 98067A   08264.51782528 -.00002182  00000-0 -11606-4 0  2927".toList
        "2 25544  51.6416 247.4627 0006703 130.5360 325.0288 15.72125391563537".toList = .ok s ∧ (sgp4 s t).map Prod.snd = some (.ok p) ∧
      6700 ≤ A ∧ A ≤ 6750 ∧ n = 15.72125391 * (2 * Real.pi) / 86400 ∧
      E - ((6703 : ℕ) : ℝ) / 10 ^ 7 * Real.sin E = ((3250288 : ℕ) : ℝ) / 10 ^ 4 * (Real.pi / 180) ∧
      let V := ellipseVelocity A n (((6703 : ℕ) : ℝ) / 10 ^ 7) (((516416 : ℕ) : ℝ) / 10 ^ 4 * (Real.pi / 180)) (((2474627 : ℕ) : ℝ) / 10 ^ 4 * (Real.pi / 180))
        (((1305360 : ℕ) : ℝ) / 10 ^ 4 * (Real.pi / 180)) E
      |p.velocity.x.val - V.x| ≤ 0.25 ∧ |p.velocity.y.val - V.y| ≤ 0.25 ∧ |p.velocity.z.val - V.z| ≤ 0.25 := by
  obtain ⟨s, p, A, E, h1, h2, hA, hA3, h4, h5, h6, h7⟩ := C112_epoch_velocity_f64 hL _ _ _ iss_printed (Or.inl rfl) (Or.inl rfl) (Or.inr (by decide)) t ht ht0
    (iss_low (by norm_num))
  change A ^ 3 * ((1572125391 : ℕ) / 10 ^ 8 * (2 * Real.pi) / 86400) ^ 2 = (398600.5 : ℝ) at hA3
  obtain ⟨A1, A2⟩ := iss_axis hA hA3
  have hε : (0.031 + 0.146 * (((6703 : ℕ) : ℝ) / 10 ^ 7)) * (A * (((1572125391 : ℕ) : ℝ) / 10 ^ 8 * (2 * Real.pi) / 86400)) ≤ 0.25 := by
    have hp := Real.pi_lt_d4
    have hpp := Real.pi_pos
    calc _ ≤ (0.031 + 0.146 * (((6703 : ℕ) : ℝ) / 10 ^ 7)) * (6750 * (((1572125391 : ℕ) : ℝ) / 10 ^ 8 * (2 * 3.1416) / 86400)) := by gcongr
      _ ≤ _ := by norm_num
  exact ⟨s, p, A, E, _, h1, h2, A1, A2, by norm_num, h4, h5.trans hε, h6.trans hε, h7.trans hε⟩

end Sat
