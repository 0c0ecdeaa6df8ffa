import Verif.Props.MotionSecular
/-!
# The rate of the velocity is the attraction of the earth

Newton's law of attraction for the published state, along slowly changing mean elements; exact arithmetic.
-/

namespace Sat
open Spec.R3 Filter Topology

namespace Slow
variable {m : ℝ → Mean} {E : ℝ → ℝ} {t x' y' u' a' h' : ℝ}

set_option maxHeartbeats 2000000 in
/-- radial and transverse speed: Keplerian motion and small terms -/
theorem speed_forms (H : Slow m E t x' y' u' a' h') :
    ∃ P Q : ℝ → ℝ, ∃ P' Q', HasDerivAt P P' t ∧ HasDerivAt Q Q' t ∧
      |P t| ≤ 0.00055 * ((m t).n * (m t).a) ∧ |Q t| ≤ 0.00218 * ((m t).n * (m t).a) ∧
      |P'| ≤ (0.001088 * turn m E t x' y' u' + 0.000016) * ((m t).n * (m t).a) ∧ |Q'| ≤ (0.001088 * turn m E t x' y' u' + 0.00002) * ((m t).n * (m t).a) ∧
      ∀ᶠ s in 𝓝 t, (m s).rdotk (E s) = ke / Real.sqrt (m s).a * ((m s).esinE (E s) / (1 - (m s).ecosE (E s))) + P s ∧
        (m s).rfdotk (E s) = ke / Real.sqrt (m s).a * (Real.sqrt (1 - (m s).eL2) / (1 - (m s).ecosE (E s))) + Q s := by
  obtain ⟨n0, n1, n2, n3⟩ := H.turn_bounds
  obtain ⟨-, -, vs, r1, r2, vc, b1, b2, v1, v2, -⟩ := H.values
  have hs2 := H.sin2u
  have hc2 := H.cos2u
  obtain ⟨hS, hSe⟩ := H.speed
  set N := Slow.turn m E t x' y' u'
  have ha1 := H.axis
  have ha0 : 0 < (m t).a := by linarith
  have hn : 0 < (m t).n := H.n_pos
  obtain ⟨t1, t2, -⟩ := Slow.θ_sq (m t)
  have hap : ∀ᶠ s in 𝓝 t, 0 < (m s).a ∧ 0 < (m s).pL ∧ 0 < 1 - (m s).ecosE (E s) := by
    have hp0 : 0 < (m t).pL := lt_of_lt_of_le (by norm_num) H.per
    have hpc : ContinuousAt (fun s => (m s).pL) t := (H.ha.continuousAt).mul H.heL.continuousAt
    have hr0 : 0 < 1 - (m t).ecosE (E t) := lt_of_lt_of_le (by norm_num) r1
    filter_upwards [H.ha.continuousAt.eventually (lt_mem_nhds ha0), hpc.eventually (lt_mem_nhds hp0),
      H.hρ.continuousAt.eventually (lt_mem_nhds hr0)] with s h1 h2 h3
    exact ⟨h1, h2, h3⟩
  set na := (m t).n * (m t).a with hna'
  have hna : 0 < na := by positivity
  have kθ : |k2 * (1 - (m t).θ ^ 2)| ≤ 0.000542 * 1 := abs_mul_bd Slow.k2_small (by rw [abs_le]; constructor <;> linarith)
  have kc : |k2 * (3 / 2 * (1 - 3 * (m t).θ ^ 2))| ≤ 0.000542 * 3 := abs_mul_bd Slow.k2_small (by rw [abs_le]; constructor <;> linarith)
  have hw : Mild (fun s => ke / Real.sqrt (m s).a * (1 / (m s).a) * (1 / (m s).pL)) t (1.0021 * na) (0.0021 * na) :=
    ((hS.mul H.invA).mul H.invP).mono (by norm_num at *; linarith) (by norm_num at *; linarith)
  have hNna : 0 ≤ na * N := by positivity
  obtain ⟨P', p1, p2, p3⟩ := (hw.mul hs2).const_mul kθ
  obtain ⟨g', g1, g2, g3⟩ := (hw.mul hc2).const_mul kθ
  obtain ⟨w', w1, w2, w3⟩ := hw.const_mul kc
  refine ⟨fun s => -(k2 * (1 - (m t).θ ^ 2) * (ke / Real.sqrt (m s).a * (1 / (m s).a) * (1 / (m s).pL) * (m s).sin2u (E s))),
    fun s => k2 * (1 - (m t).θ ^ 2) * (ke / Real.sqrt (m s).a * (1 / (m s).a) * (1 / (m s).pL) * (m s).cos2u (E s)) -
        k2 * (3 / 2 * (1 - 3 * (m t).θ ^ 2)) * (ke / Real.sqrt (m s).a * (1 / (m s).a) * (1 / (m s).pL)), -P', g' - w', p1.neg, g1.sub w1,
    ?_, ?_, ?_, ?_, ?_⟩
  · refine (abs_neg_bd p3).trans ?_; norm_num at *; linarith
  · refine (abs_sub_bd g3 w3).trans ?_; norm_num at *; linarith
  · refine (abs_neg_bd p2).trans ?_; norm_num at *; linarith
  · refine (abs_sub_bd g2 w2).trans ?_; norm_num at *; linarith
  · filter_upwards [hap] with s ⟨h1, h2, h3⟩
    have hq := Real.sqrt_pos.mpr h1
    have hq2 : Real.sqrt (m s).a ^ 2 = (m s).a := Real.sq_sqrt h1.le
    constructor
    · unfold Mean.rdotk Mean.rdot Mean.r
      rw [hSe s h1, H.θ_const s]
      rw [show ke * Real.sqrt (m s).a = ke / Real.sqrt (m s).a * (m s).a by field_simp; rw [hq2], hSe s h1]
      field_simp; ring
    · have hp : ke * Real.sqrt (m s).pL = ke / Real.sqrt (m s).a * (m s).a * Real.sqrt (1 - (m s).eL2) := by
        unfold Mean.pL; rw [Real.sqrt_mul h1.le]; field_simp; rw [hq2]; ring
      unfold Mean.rfdotk Mean.rfdot Mean.r
      rw [hp, hSe s h1, H.θ_const s]
      field_simp

set_option maxHeartbeats 2000000 in
/-- The rate of the velocity, in units of mean motion and mean speed, is directed to the centre of the earth and of the inverse square of the distance,
up to 6 % of its size in each component. -/
theorem attraction (H : Slow m E t x' y' u' a' h') (j : Fin 3) :
    ∃ p', HasDerivAt (fun s => (m s).velocityKmS (E s) j) p' t ∧
      |p' + (m t).n * (m t).a * (kmPerRadius / 60) / (1 - (m t).ecosE (E t)) ^ 2 * (m t).Uvec (E t) j| ≤
        0.06 * ((m t).n * (m t).a * (kmPerRadius / 60) / (1 - (m t).ecosE (E t)) ^ 2) := by
  obtain ⟨δ, bδ, hfr⟩ := H.frame_rate
  obtain ⟨⟨d, bd, hU⟩, ⟨d', bd', hV⟩⟩ := hfr j
  obtain ⟨U1, V1⟩ := frame_le_one (m t) (E t) j
  obtain ⟨n0, n1, n2, n3⟩ := H.turn_bounds
  obtain ⟨κ, hκ, ek, eN⟩ := H.rate_bounds
  obtain ⟨-, -, vs, r1, r2, vc, b1, b2, v1, v2, -⟩ := H.values
  obtain ⟨⟨S', hS, bS, -⟩, hSe⟩ := H.speed
  obtain ⟨β', hβ, bβ', -⟩ := H.beta
  obtain ⟨P, Q, P', Q', hP, hQ, bP, bQ, bP', bQ', hev⟩ := H.speed_forms
  have ha1 := H.axis
  have ha0 : 0 < (m t).a := by linarith
  have hn : 0 < (m t).n := H.n_pos
  have hSt := hSe t ha0
  have hr0 : 1 - (m t).ecosE (E t) ≠ 0 := by norm_num at *; linarith
  have f1 := (hS.mul (H.hs.div H.hρ hr0)).add hP
  have f2 := (hS.mul (hβ.div H.hρ hr0)).add hQ
  have hv := ((f1.mul hU).add (f2.mul hV)).mul_const (kmPerRadius / 60)
  refine ⟨_, hv.congr_of_eventuallyEq ?_, ?_⟩
  · filter_upwards [hev] with s hs
    show ((m s).rdotk (E s) * (m s).Uvec (E s) j + (m s).rfdotk (E s) * (m s).Vvec (E s) j) * (kmPerRadius / 60) = _
    rw [hs.1, hs.2]; rfl
  simp only [Pi.mul_apply, Pi.add_apply, Pi.div_apply]
  rw [hSt]
  have hcs : (m t).ecosE (E t) ^ 2 + (m t).esinE (E t) ^ 2 = (m t).eL2 := by
    unfold Mean.ecosE Mean.esinE Mean.eL2
    linear_combination ((m t).axN ^ 2 + (m t).ayN ^ 2) * Real.sin_sq_add_cos_sq (E t)
  have hb2 : Real.sqrt (1 - (m t).eL2) ^ 2 = 1 - (m t).eL2 := Real.sq_sqrt (by have := H.ecc; norm_num at *; linarith)
  have hR : (0:ℝ) < kmPerRadius := by unfold kmPerRadius; norm_num
  generalize hcc : (m t).ecosE (E t) = c at *
  generalize hρd : 1 - c = ρ at *
  generalize (m t).esinE (E t) = σ at *
  generalize hbb : Real.sqrt (1 - (m t).eL2) = β at *
  generalize hNd : turn m E t x' y' u' = N at *
  generalize rate m E t x' y' u' = k at *
  generalize (m t).Uvec (E t) j = U at *
  generalize (m t).Vvec (E t) j = V at *
  generalize x' * Real.cos (E t) + y' * Real.sin (E t) = h at *
  generalize x' * Real.sin (E t) - y' * Real.cos (E t) = g at *
  have hw0 : 0 < (m t).n * (m t).a := by positivity
  generalize (m t).n * (m t).a = w at *
  have hρ0 : 0 < ρ := lt_of_lt_of_le (by norm_num) r1
  generalize P t = p at *
  generalize Q t = q at *
  have bβ : |β| ≤ 1 := by rw [abs_of_nonneg (by norm_num at *; linarith)]; exact b2
  have bw : |w| ≤ w := le_of_eq (abs_of_pos hw0)
  have bρ : |ρ| ≤ 1.45 := by rw [abs_of_pos hρ0]; exact r2
  have bρ2 : |ρ ^ 2| ≤ 2.1025 := by
    rw [abs_of_pos (by positivity)]
    calc ρ ^ 2 ≤ 1.45 ^ 2 := by gcongr
      _ ≤ _ := by norm_num
  have hρN : ρ ^ 2 * N ≤ 1.007 := by
    rw [eN, mul_div_cancel₀ _ (by positivity : ρ ^ 2 ≠ 0)]
    obtain ⟨k1, k2⟩ := abs_le.mp hκ
    calc (1 + κ) * β ≤ 1.007 * 1 := mul_le_mul (by norm_num at *; linarith) b2 (by norm_num at *; linarith) (by norm_num)
      _ = _ := by norm_num
  have hρN0 : 0 ≤ ρ ^ 2 * N := by positivity
  have bρδ : |ρ * δ| ≤ 0.00307 := by
    rw [abs_mul, abs_of_pos hρ0]
    calc ρ * |δ| ≤ ρ * (0.00164 * N + 0.00003) := by gcongr
      _ = 0.00164 * (ρ * N) + 0.00003 * ρ := by ring
      _ ≤ 0.00164 * 1.84 + 0.00003 * 1.45 := by gcongr
      _ ≤ _ := by norm_num
  have bρ2δ : |ρ ^ 2 * δ| ≤ 0.0018 := by
    rw [abs_mul, abs_of_pos (by positivity : 0 < ρ ^ 2)]
    have hr := (abs_of_pos (by positivity : 0 < ρ ^ 2)) ▸ bρ2
    calc ρ ^ 2 * |δ| ≤ ρ ^ 2 * (0.00164 * N + 0.00003) := by gcongr
      _ = 0.00164 * (ρ ^ 2 * N) + 0.00003 * ρ ^ 2 := by ring
      _ ≤ 0.00164 * 1.007 + 0.00003 * 2.1025 := by gcongr
      _ ≤ _ := by norm_num
  have bρ2N : |ρ ^ 2 * (N + δ)| ≤ 1.0088 := by
    rw [mul_add]
    refine (abs_add_bd (le_of_eq (abs_of_nonneg hρN0)) bρ2δ).trans ?_
    norm_num at *; linarith
  have dd : ∀ {z : ℝ}, |z| ≤ 0.01302 + 2 * (0.00164 * N + 0.00003) → |ρ * z| ≤ 0.0251 ∧ |ρ ^ 2 * z| ≤ 0.031 := by
    intro z hz
    have hr := (abs_of_pos (by positivity : 0 < ρ ^ 2)) ▸ bρ2
    constructor
    · rw [abs_mul, abs_of_pos hρ0]
      calc ρ * |z| ≤ ρ * (0.01302 + 2 * (0.00164 * N + 0.00003)) := by gcongr
        _ = 0.01308 * ρ + 0.00328 * (ρ * N) := by ring
        _ ≤ 0.01308 * 1.45 + 0.00328 * 1.84 := by gcongr
        _ ≤ _ := by norm_num
    · rw [abs_mul, abs_of_pos (by positivity : 0 < ρ ^ 2)]
      calc ρ ^ 2 * |z| ≤ ρ ^ 2 * (0.01302 + 2 * (0.00164 * N + 0.00003)) := by gcongr
        _ = 0.01308 * ρ ^ 2 + 0.00328 * (ρ ^ 2 * N) := by ring
        _ ≤ 0.01308 * 2.1025 + 0.00328 * 1.007 := by gcongr
        _ ≤ _ := by norm_num
  obtain ⟨d1, d2⟩ := dd bd
  obtain ⟨d3, d4⟩ := dd bd'
  have pd : ∀ {z K : ℝ}, |z| ≤ (0.001088 * N + K) * w → K ≤ 0.00002 → |ρ ^ 2 * z| ≤ 0.00115 * w := by
    intro z K hz hK
    have hr := (abs_of_pos (by positivity : 0 < ρ ^ 2)) ▸ bρ2
    rw [abs_mul, abs_of_pos (by positivity : 0 < ρ ^ 2)]
    calc ρ ^ 2 * |z| ≤ ρ ^ 2 * ((0.001088 * N + 0.00002) * w) := by
          refine mul_le_mul_of_nonneg_left (hz.trans ?_) (by positivity)
          gcongr
      _ = (0.001088 * (ρ ^ 2 * N) + 0.00002 * ρ ^ 2) * w := by ring
      _ ≤ (0.001088 * 1.007 + 0.00002 * 2.1025) * w := by gcongr
      _ ≤ _ := by gcongr; norm_num
  have eP := pd bP' (by norm_num)
  have eQ := pd bQ' le_rfl
  -- the part along the radius, transverse and out of the frame
  have A1 : |-(w * κ) + S' * (σ * ρ) + w * (g * ρ) + w * (σ * h) + ρ ^ 2 * P' - w * (β * (ρ * δ)) - q * (ρ ^ 2 * (N + δ))| ≤ 0.0163 * w := by
    refine (abs_sub_bd (abs_sub_bd (abs_add_bd (abs_add_bd (abs_add_bd (abs_add_bd (abs_neg_bd (abs_mul_bd bw hκ)) (abs_mul_bd bS (abs_mul_bd vs bρ)))
      (abs_mul_bd bw (abs_mul_bd v2 bρ))) (abs_mul_bd bw (abs_mul_bd vs v1))) eP) (abs_mul_bd bw (abs_mul_bd bβ bρδ))) (abs_mul_bd bQ bρ2N)).trans ?_
    norm_num at *; linarith
  have A2 : |S' * (β * ρ) + w * (β' * ρ) + w * (β * h) + ρ ^ 2 * Q' + w * (σ * (ρ * δ)) + p * (ρ ^ 2 * (N + δ))| ≤ 0.0057 * w := by
    refine (abs_add_bd (abs_add_bd (abs_add_bd (abs_add_bd (abs_add_bd (abs_mul_bd bS (abs_mul_bd bβ bρ)) (abs_mul_bd bw (abs_mul_bd bβ' bρ)))
      (abs_mul_bd bw (abs_mul_bd bβ v1))) eQ) (abs_mul_bd bw (abs_mul_bd vs bρδ))) (abs_mul_bd bP bρ2N)).trans ?_
    norm_num at *; linarith
  have A3 : |w * (σ * (ρ * d)) + w * (β * (ρ * d')) + p * (ρ ^ 2 * d) + q * (ρ ^ 2 * d')| ≤ 0.0365 * w := by
    refine (abs_add_bd (abs_add_bd (abs_add_bd (abs_mul_bd bw (abs_mul_bd vs d1)) (abs_mul_bd bw (abs_mul_bd bβ d3))) (abs_mul_bd bP d2)) (abs_mul_bd bQ d4)).trans ?_
    norm_num at *; linarith
  have key := abs_add_bd (abs_add_bd (abs_mul_bd A1 U1) (abs_mul_bd A2 V1)) A3
  have hc1 : c * ρ - σ ^ 2 = c + β ^ 2 - 1 := by rw [← hρd]; linear_combination -hcs - hb2
  rw [show 0.06 * (w * (kmPerRadius / 60) / ρ ^ 2) = 0.06 * w * (kmPerRadius / 60) / ρ ^ 2 by ring, le_div_iff₀ (by positivity)]
  have hρ2 : ρ * k = 1 + κ := by rw [ek]; field_simp
  have hNk : ρ * N = k * β := by rw [eN, ek]; field_simp
  have hck : c = 1 - ρ := by linarith
  set Z := ((S' * (σ / ρ) + w * (((c * k + g) * ρ - σ * (σ * k - h)) / ρ ^ 2) + P') * U + (w * (σ / ρ) + p) * ((N + δ) * V + d) +
    ((S' * (β / ρ) + w * ((β' * ρ - β * (σ * k - h)) / ρ ^ 2) + Q') * V + (w * (β / ρ) + q) * (-(N + δ) * U + d'))) * (kmPerRadius / 60) +
      w * (kmPerRadius / 60) / ρ ^ 2 * U with hZ
  have e1 : Z * ρ ^ 2 = ((S' * (σ * ρ) + w * ((c * k + g) * ρ - σ * (σ * k - h)) + ρ ^ 2 * P') * U + (w * (σ * ρ) + ρ ^ 2 * p) * ((N + δ) * V + d) +
    ((S' * (β * ρ) + w * (β' * ρ - β * (σ * k - h)) + ρ ^ 2 * Q') * V + (w * (β * ρ) + ρ ^ 2 * q) * (-(N + δ) * U + d'))) * (kmPerRadius / 60) +
      w * (kmPerRadius / 60) * U := by
    rw [hZ]; field_simp
  have e2 : Z * ρ ^ 2 = ((-(w * κ) + S' * (σ * ρ) + w * (g * ρ) + w * (σ * h) + ρ ^ 2 * P' - w * (β * (ρ * δ)) - q * (ρ ^ 2 * (N + δ))) * U +
      (S' * (β * ρ) + w * (β' * ρ) + w * (β * h) + ρ ^ 2 * Q' + w * (σ * (ρ * δ)) + p * (ρ ^ 2 * (N + δ))) * V +
        (w * (σ * (ρ * d)) + w * (β * (ρ * d')) + p * (ρ ^ 2 * d) + q * (ρ ^ 2 * d'))) * (kmPerRadius / 60) := by
    rw [e1]
    linear_combination (kmPerRadius / 60) * (w * U * k * hc1 - w * U * β * hNk + w * V * σ * hNk - w * U * hρ2 + w * U * k * hck)
  rw [show |Z| * ρ ^ 2 = |Z * ρ ^ 2| by rw [abs_mul, abs_of_pos (by positivity : 0 < ρ ^ 2)], e2]
  refine (abs_mul_bd key (le_of_eq (abs_of_pos (by positivity : 0 < kmPerRadius / 60)))).trans ?_
  refine mul_le_mul_of_nonneg_right ?_ (by positivity)
  norm_num at *; linarith
end Slow

theorem Uvec_unit (M : Mean) (e : ℝ) : M.Uvec e 0 ^ 2 + M.Uvec e 1 ^ 2 + M.Uvec e 2 ^ 2 = 1 := by
  unfold Mean.Uvec
  simp only [Matrix.cons_val_zero, Matrix.cons_val_one, Matrix.cons_val]
  generalize M.Ωk e = a, M.ik e = b, M.uk e = c
  have ea := Real.sin_sq_add_cos_sq a
  have eb := Real.sin_sq_add_cos_sq b
  have ec := Real.sin_sq_add_cos_sq c
  generalize Real.sin a = sa, Real.cos a = ca, Real.sin b = sb, Real.cos b = cb, Real.sin c = sc, Real.cos c = cc at *
  linear_combination (cb ^ 2 * sc ^ 2 + cc ^ 2) * ea + sc ^ 2 * eb + ec

/-- length of a vector -/
noncomputable def length (x : Fin 3 → ℝ) : ℝ := Real.sqrt (x 0 ^ 2 + x 1 ^ 2 + x 2 ^ 2)

theorem position_length (M : Mean) (e : ℝ) (h : 0 ≤ M.rk e) : length (M.positionKm e) = M.rk e * kmPerRadius := by
  have hR : (0:ℝ) < kmPerRadius := by unfold kmPerRadius; norm_num
  unfold length Mean.positionKm
  rw [show (M.rk e * M.Uvec e 0 * kmPerRadius) ^ 2 + (M.rk e * M.Uvec e 1 * kmPerRadius) ^ 2 + (M.rk e * M.Uvec e 2 * kmPerRadius) ^ 2 =
    (M.rk e * kmPerRadius) ^ 2 * (M.Uvec e 0 ^ 2 + M.Uvec e 1 ^ 2 + M.Uvec e 2 ^ 2) by ring, Uvec_unit, mul_one]
  exact Real.sqrt_sq (by positivity)

/-- The rate of the velocity of the theory (km/s per minute) is the attraction of the earth, `- mu x / |x|^3`, up to 6.5 % of its size. -/
theorem Rates.attraction {m : ℝ → Mean} {t e' w' h' a' l' : ℝ} (H : Rates m t e' w' h' a' l') (j : Fin 3) :
    ∃ p', HasDerivAt (fun s => (m s).velocityKmS (keplerRoot (m s)) j) p' t ∧
      let X := (m t).positionKm (keplerRoot (m t))
      |p' / 60 + 398600.5 * X j / length X ^ 3| ≤ 0.065 * (398600.5 / length X ^ 2) := by
  obtain ⟨x', y', u', a'', h'', S⟩ := H.slow
  obtain ⟨hF, -⟩ := fair_of H.ecc H.per
  have hN : 0 < (m t).n := (slow_shift hF 0).n_pos
  obtain ⟨p', h1, h2⟩ := S.attraction j
  set N := (m t).n with hNd
  have t0 : t + 0 / N = t := by rw [zero_div, add_zero]
  simp only [t0] at h2
  rw [← hNd] at h2
  have hsub : HasDerivAt (fun s : ℝ => (s - t) * N) N t := by
    simpa using ((hasDerivAt_id t).sub_const t).mul_const N
  have := HasDerivAt.comp (h := fun s : ℝ => (s - t) * N)
    (h₂ := fun s => (m (t + s / N)).velocityKmS (keplerRoot (m (t + s / N))) j) t (by
      show HasDerivAt _ _ ((t - t) * N); rw [sub_self, zero_mul]; exact h1) hsub
  refine ⟨p' * N, this.congr_of_eventuallyEq (Eventually.of_forall fun s => ?_), ?_⟩
  · show _ = (m (t + (s - t) * N / N)).velocityKmS (keplerRoot (m (t + (s - t) * N / N))) j
    rw [show t + (s - t) * N / N = s by field_simp; ring]
  intro X
  obtain ⟨-, -, r0, -, -, -, hrk, -, -⟩ := perturbation_bounds (m t) (keplerRoot (m t)) ⟨H.ecc.1, H.ecc.2.trans (by norm_num)⟩ H.per
  obtain ⟨q1, q2⟩ := abs_le.mp hrk
  have hr0 : 0 < (m t).r (keplerRoot (m t)) := by norm_num at *; linarith
  have hk0 : 0 < (m t).rk (keplerRoot (m t)) := by norm_num at *; linarith
  have hL : length X = (m t).rk (keplerRoot (m t)) * kmPerRadius := position_length _ _ hk0.le
  have hX : X j = (m t).rk (keplerRoot (m t)) * (m t).Uvec (keplerRoot (m t)) j * kmPerRadius := rfl
  obtain ⟨U1, -⟩ := frame_le_one (m t) (keplerRoot (m t)) j
  have hr : (m t).r (keplerRoot (m t)) = (m t).a * (1 - (m t).ecosE (keplerRoot (m t))) := rfl
  have ha0 : 0 < (m t).a := by have := hF.axis; linarith
  have hna : N ^ 2 * (m t).a ^ 3 = ke ^ 2 := by
    rw [hNd]; unfold Mean.n
    have h3 : ((m t).a ^ (3 / 2 : ℝ)) ^ 2 = (m t).a ^ 3 := by
      rw [← Real.rpow_natCast, ← Real.rpow_mul ha0.le, ← Real.rpow_natCast]; norm_num
    rw [div_pow, h3]; field_simp
  rw [hL, hX]
  generalize (m t).Uvec (keplerRoot (m t)) j = U at *
  generalize (m t).rk (keplerRoot (m t)) = rk at *
  generalize (m t).r (keplerRoot (m t)) = r at *
  generalize 1 - (m t).ecosE (keplerRoot (m t)) = ρ at *
  generalize (m t).a = a at *
  have hρ0 : 0 < ρ := by
    by_contra hc; push Not at hc
    have := mul_nonpos_of_nonneg_of_nonpos ha0.le hc
    linarith
  have hR : (0:ℝ) < kmPerRadius := by unfold kmPerRadius; norm_num
  have hM : |ke ^ 2 * kmPerRadius ^ 3 / 3600 - 398600.5| ≤ 0.01 := by
    unfold ke kmPerRadius; rw [abs_le]; constructor <;> norm_num
  set G := 398600.5 / (rk * kmPerRadius) ^ 2 with hG
  have hG0 : 0 < G := by positivity
  set g := N * (N * a * (kmPerRadius / 60) / ρ ^ 2) / 60 with hg
  have hgG : g = ke ^ 2 * kmPerRadius ^ 3 / 3600 / (r * kmPerRadius) ^ 2 := by
    rw [hg, hr, ← hna]; field_simp; norm_num
  have e1 : 398600.5 * (rk * U * kmPerRadius) / (rk * kmPerRadius) ^ 3 = G * U := by rw [hG]; field_simp
  have h3 : |p' * N / 60 + g * U| ≤ 0.06 * g := by
    have : p' * N / 60 + g * U = (p' + N * a * (kmPerRadius / 60) / ρ ^ 2 * U) * (N / 60) := by rw [hg]; ring
    rw [this]
    refine (abs_mul_bd h2 (le_of_eq (abs_of_pos (by positivity : 0 < N / 60)))).trans (le_of_eq ?_)
    rw [hg]; ring
  -- the distance with and without short-period terms
  have h4 : |g - G| ≤ 0.0041 * G := by
    have h5 : g = G * ((ke ^ 2 * kmPerRadius ^ 3 / 3600 / 398600.5) * (rk / r) ^ 2) := by rw [hgG, hG]; field_simp
    obtain ⟨m1, m2⟩ := abs_le.mp hM
    set z := ke ^ 2 * kmPerRadius ^ 3 / 3600 / 398600.5 with hz
    have z1 : 0.9999999 ≤ z := by rw [hz, le_div_iff₀ (by norm_num)]; norm_num at *; linarith
    have z2 : z ≤ 1.0000001 := by rw [hz, div_le_iff₀ (by norm_num)]; norm_num at *; linarith
    set y := rk / r with hy
    have y1 : 0.998086 ≤ y := by rw [hy, le_div_iff₀ hr0]; norm_num at *; linarith
    have y2 : y ≤ 1.001914 := by rw [hy, div_le_iff₀ hr0]; norm_num at *; linarith
    have y0 : 0 < y := by positivity
    have y3 : (0.998086:ℝ) ^ 2 ≤ y ^ 2 := by gcongr
    have y4 : y ^ 2 ≤ (1.001914:ℝ) ^ 2 := by gcongr
    rw [h5, show G * (z * y ^ 2) - G = (z * y ^ 2 - 1) * G by ring, abs_mul, abs_of_pos hG0]
    gcongr
    have w1 : 0.9999999 * (0.998086:ℝ) ^ 2 ≤ z * y ^ 2 := by gcongr
    have w2 : z * y ^ 2 ≤ 1.0000001 * (1.001914:ℝ) ^ 2 := by gcongr
    rw [abs_le]; constructor <;> norm_num at * <;> linarith
  rw [e1, show p' * N / 60 + G * U = (p' * N / 60 + g * U) - (g - G) * U by ring]
  refine (abs_sub_bd h3 (abs_mul_bd h4 U1)).trans ?_
  obtain ⟨g1, g2⟩ := abs_le.mp h4
  norm_num at *; linarith

end Sat
