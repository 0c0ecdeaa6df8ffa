import Verif.Props.Motion
import Verif.Props.Laws
/-!
# C88: the velocity is the rate of change of the position

Application of `Props/Motion.lean` to the mean elements of the secular theory.
-/

namespace Sat
open Spec.R3 Filter Topology

/-! ## The solution of Kepler's equation as a function of the mean elements -/

theorem exists_root (m : Mean) : ∃ E, m.kepler E = 0 := by
  set B := |m.axN| + |m.ayN|
  have hb : ∀ x, |m.axN * Real.sin x - m.ayN * Real.cos x| ≤ B := fun x => by
    refine (abs_sub_bd (abs_mul_bd le_rfl (Real.abs_sin_le_one x)) (abs_mul_bd le_rfl (Real.abs_cos_le_one x))).trans ?_
    rw [mul_one, mul_one]
  have hB : 0 ≤ B := by positivity
  have hcont : ContinuousOn m.kepler (Set.Icc (m.U - B) (m.U + B)) := by
    apply Continuous.continuousOn
    unfold Mean.kepler; fun_prop
  have h1 : 0 ≤ m.kepler (m.U - B) := by
    have := (abs_le.mp (hb (m.U - B))).1
    unfold Mean.kepler; linarith
  have h2 : m.kepler (m.U + B) ≤ 0 := by
    have := (abs_le.mp (hb (m.U + B))).2
    unfold Mean.kepler; linarith
  obtain ⟨E, -, hE⟩ := intermediate_value_Icc' (by linarith) hcont ⟨h2, h1⟩
  exact ⟨E, hE⟩

/-- the solution of Kepler's equation -/
noncomputable def keplerRoot (m : Mean) : ℝ := Classical.choose (exists_root m)

theorem kepler_root (m : Mean) : m.kepler (keplerRoot m) = 0 := Classical.choose_spec (exists_root m)

theorem root_unique (m : Mean) (h : m.eL2 ≤ 0.45 ^ 2) {E : ℝ} (hE : m.kepler E = 0) : keplerRoot m = E := by
  have := kepler_separates (e := 0.45) h (by norm_num) (keplerRoot m) E
  rw [kepler_root, hE, sub_zero, abs_zero] at this
  have h2 : |keplerRoot m - E| = 0 := le_antisymm
    (le_of_not_gt fun h => absurd (mul_pos (by norm_num : (0:ℝ) < 1 - 0.45) h) (not_lt.mpr this)) (abs_nonneg _)
  rw [abs_eq_zero] at h2; linarith

/-- moving the mean longitude only -/
def shift (m : Mean) (s : ℝ) : Mean := { m with L := m.L + s }

theorem kepler_shift (m : Mean) (s E : ℝ) : (shift m s).kepler E = m.kepler E + s := by
  show m.L + s + longL m.i / (m.a * (1 - m.e ^ 2)) * m.axN - m.Ω - m.ayN * Real.cos E + m.axN * Real.sin E - E = _
  unfold Mean.kepler Mean.U; ring

/-- The sizes required of the mean orbit: eccentricity (with the long-period term) at most 0.45, and not inside the earth. -/
structure Fair (m : Mean) : Prop where
  ecc : m.eL2 ≤ 0.45 ^ 2
  axis : 1 ≤ m.a
  per : 0.998 ≤ m.pL

theorem slow_shift {m : Mean} (h : Fair m) (t : ℝ) : Slow (shift m) (fun s => keplerRoot (shift m s)) t 0 0 1 0 0 where
  hx := by
    have : HasDerivAt (fun _ : ℝ => m.axN) 0 t := hasDerivAt_const _ _
    exact this
  hy := by
    have : HasDerivAt (fun _ : ℝ => m.ayN) 0 t := hasDerivAt_const _ _
    exact this
  hu := by
    have : HasDerivAt (fun s => (m.L + s) + longL m.i / (m.a * (1 - m.e ^ 2)) * m.axN - m.Ω) 1 t :=
      (((hasDerivAt_id t).const_add m.L).add_const _).sub_const _
    exact this
  ha := hasDerivAt_const _ _
  hh := hasDerivAt_const _ _
  bx := by norm_num
  byy := by norm_num
  bu := by norm_num
  ba := by
    rw [abs_zero]; have := h.axis
    show 0 ≤ 0.0001 * m.a
    linarith
  bh := by norm_num
  inc := fun _ => rfl
  root := fun s => kepler_root (shift m s)
  ecc := h.ecc
  axis := h.axis
  per := h.per

/-- size of the velocity -/
theorem Slow.velocity_le {m : ℝ → Mean} {E : ℝ → ℝ} {t x' y' u' a' h' : ℝ} (H : Slow m E t x' y' u' a' h') (j : Fin 3) :
    |(m t).velocityKmS (E t) j| ≤ 2.64 * ((m t).n * (m t).a * kmPerRadius / 60) := by
  obtain ⟨p, q, bp, bq, hrd, hrf⟩ := H.speeds
  obtain ⟨-, -, vs, r1, -, -, -, b2, -, -, -⟩ := H.values
  obtain ⟨U1, V1⟩ := frame_le_one (m t) (E t) j
  have hn := H.n_pos
  have ha0 : 0 < (m t).a := by have := H.axis; linarith
  have hvel : (m t).velocityKmS (E t) j = ((m t).rdotk (E t) * (m t).Uvec (E t) j + (m t).rfdotk (E t) * (m t).Vvec (E t) j) * (kmPerRadius / 60) := rfl
  have bn : |(m t).n| ≤ (m t).n := by rw [abs_of_pos hn]
  have ba : |(m t).a| ≤ (m t).a := by rw [abs_of_pos ha0]
  have bβ : |Real.sqrt (1 - (m t).eL2)| ≤ 1 := by rwa [abs_of_nonneg (Real.sqrt_nonneg _)]
  have hR : (0:ℝ) < kmPerRadius := by unfold kmPerRadius; norm_num
  have hna : 0 < (m t).n * (m t).a := by positivity
  rw [hvel, hrd, hrf]
  refine (abs_mul_bd (abs_add_bd (abs_mul_bd (abs_mul_bd bn (abs_add_bd (abs_mul_bd ba (abs_div_bd vs (by norm_num) r1)) bp)) U1)
    (abs_mul_bd (abs_mul_bd bn (abs_add_bd (abs_mul_bd ba (abs_div_bd bβ (by norm_num) r1)) bq)) V1)) (show |kmPerRadius / 60| ≤ kmPerRadius / 60 by
      rw [abs_of_pos (by positivity)])).trans ?_
  rw [show (m t).n * ((m t).a * (0.45 / 0.55) + 0.000545 * (m t).a) * 1 + (m t).n * ((m t).a * (1 / 0.55) + 0.00164 * (m t).a) * 1 =
    (0.45 / 0.55 + 0.000545 + 1 / 0.55 + 0.00164) * ((m t).n * (m t).a) by ring]
  calc _ ≤ 2.64 * ((m t).n * (m t).a) * (kmPerRadius / 60) := by gcongr; norm_num
    _ = _ := by ring

/-- Rate of the position, from its comparison with the velocity. -/
theorem Slow.position_rate_le {m : ℝ → Mean} {E : ℝ → ℝ} {t x' y' u' a' h' : ℝ} (H : Slow m E t x' y' u' a' h') (j : Fin 3) :
    ∃ p', HasDerivAt (fun s => (m s).positionKm (E s) j) p' t ∧ |p'| ≤ 2.7 * ((m t).a * kmPerRadius) := by
  obtain ⟨p', h1, h2⟩ := H.position_rate j
  have hv := H.velocity_le j
  have hn := H.n_pos
  refine ⟨p', h1, ?_⟩
  have h3 : |p' * (m t).n / 60| ≤ 2.7 * ((m t).n * (m t).a * kmPerRadius / 60) := by
    rw [show p' * (m t).n / 60 = (p' * (m t).n / 60 - (m t).velocityKmS (E t) j) + (m t).velocityKmS (E t) j by ring]
    refine (abs_add_bd h2 hv).trans (le_of_eq (by ring))
  rw [show p' * (m t).n / 60 = p' * ((m t).n / 60) by ring, abs_mul, abs_of_pos (by positivity : 0 < (m t).n / 60)] at h3
  rw [show 2.7 * ((m t).n * (m t).a * kmPerRadius / 60) = 2.7 * ((m t).a * kmPerRadius) * ((m t).n / 60) by ring] at h3
  exact le_of_mul_le_mul_right h3 (by positivity)

theorem lipschitz {f f' : ℝ → ℝ} {C : ℝ} (hf : ∀ x, HasDerivAt f (f' x) x) (hb : ∀ x, |f' x| ≤ C) (x y : ℝ) : |f y - f x| ≤ C * |y - x| := by
  have := Convex.norm_image_sub_le_of_norm_hasDerivWithin_le (f := f) (f' := f') (s := Set.univ) (C := C) (x := x) (y := y)
    (fun z _ => (hf z).hasDerivWithinAt) (fun z _ => hb z) convex_univ (Set.mem_univ _) (Set.mem_univ _)
  exact this

/-- the mean orbital speed, in earth radii per minute -/
theorem Slow.speed {m : ℝ → Mean} {E : ℝ → ℝ} {t x' y' u' a' h' : ℝ} (H : Slow m E t x' y' u' a' h') :
    Mild (fun s => ke / Real.sqrt (m s).a) t ((m t).n * (m t).a) (0.00005 * ((m t).n * (m t).a)) ∧
    ∀ s, 0 < (m s).a → ke / Real.sqrt (m s).a = (m s).n * (m s).a := by
  have hk : (0:ℝ) < ke := by unfold ke; norm_num
  have e : ∀ s, 0 < (m s).a → ke / Real.sqrt (m s).a = (m s).n * (m s).a := by
    intro s hs
    have h2 : (m s).a ^ (3 / 2 : ℝ) = (m s).a * Real.sqrt (m s).a := by
      rw [Real.sqrt_eq_rpow, ← Real.rpow_one_add' hs.le (by norm_num)]; norm_num
    have h3 : 0 < Real.sqrt (m s).a := Real.sqrt_pos.mpr hs
    unfold Mean.n
    rw [h2]; field_simp
  have ha1 := H.axis
  have ha0 : 0 < (m t).a := by linarith
  have hq := Real.sqrt_pos.mpr ha0
  have hq2 : Real.sqrt (m t).a ^ 2 = (m t).a := Real.sq_sqrt ha0.le
  have hn := H.n_pos
  refine ⟨⟨-((m t).n * (m t).a) * (a' / (2 * (m t).a)), ?_, ?_, ?_⟩, e⟩
  · have := ((H.ha.sqrt ha0.ne').inv hq.ne').const_mul ke
    refine (this.congr_of_eventuallyEq (Eventually.of_forall fun s => div_eq_mul_inv _ _)).congr_deriv ?_
    rw [← e t ha0, hq2]; field_simp
  · refine (abs_mul_bd (abs_neg_bd (le_of_eq (abs_of_pos (by positivity : 0 < (m t).n * (m t).a)))) (B := 0.00005) ?_).trans (le_of_eq (by ring))
    rw [abs_div, abs_of_pos (by positivity : 0 < 2 * (m t).a), div_le_iff₀ (by positivity)]
    have := H.ba
    norm_num at *; linarith
  · show |ke / Real.sqrt (m t).a| ≤ _
    rw [e t ha0, abs_of_pos (by positivity)]

set_option maxHeartbeats 2000000 in
/-- Rate of the velocity along slowly changing mean elements. -/
theorem Slow.velocity_rate {m : ℝ → Mean} {E : ℝ → ℝ} {t x' y' u' a' h' : ℝ} (H : Slow m E t x' y' u' a' h') (j : Fin 3) :
    ∃ p', HasDerivAt (fun s => (m s).velocityKmS (E s) j) p' t ∧ |p'| ≤ 15 * ((m t).n * (m t).a * kmPerRadius / 60) := by
  obtain ⟨δ, bδ, hfr⟩ := H.frame_rate
  obtain ⟨⟨d, bd, hU⟩, ⟨d', bd', hV⟩⟩ := hfr j
  obtain ⟨U1, V1⟩ := frame_le_one (m t) (E t) j
  obtain ⟨n0, n1, n2, n3⟩ := H.turn_bounds
  obtain ⟨-, -, vs, r1, r2, vc, b1, b2, v1, v2, -⟩ := H.values
  have hs2 := H.sin2u
  have hc2 := H.cos2u
  obtain ⟨hS, hSe⟩ := H.speed
  set N := Slow.turn m E t x' y' u'
  have hN : |N| ≤ 3.34 := by rwa [abs_of_nonneg n0]
  have hUm : Mild (fun s => (m s).Uvec (E s) j) t 1 3.38 := by
    refine ⟨_, hU, ?_, U1⟩
    refine (abs_add_bd (abs_mul_bd (abs_add_bd hN bδ) V1) bd).trans ?_
    norm_num at *; linarith
  have hVm : Mild (fun s => (m s).Vvec (E s) j) t 1 3.38 := by
    refine ⟨_, hV, ?_, V1⟩
    refine (abs_add_bd (abs_mul_bd (abs_neg_bd (abs_add_bd hN bδ)) U1) bd').trans ?_
    norm_num at *; linarith
  have hρm : Mild (fun s => 1 - (m s).ecosE (E s)) t 1.45 0.83 := by
    refine ⟨_, H.hρ, ?_, by rw [abs_of_nonneg (by norm_num at *; linarith)]; exact r2⟩
    refine (abs_sub_bd (abs_mul_bd vs n3) v1).trans (by norm_num)
  have hσm : Mild (fun s => (m s).esinE (E s)) t 0.45 0.83 := by
    refine ⟨_, H.hs, ?_, vs⟩
    refine (abs_add_bd (abs_mul_bd vc n3) v2).trans (by norm_num)
  have hi := hρm.inv (by norm_num : (0:ℝ) < 0.55) r1
  have ha1 := H.axis
  have ha0 : 0 < (m t).a := by linarith
  have hn : 0 < (m t).n := H.n_pos
  obtain ⟨t1, t2, -⟩ := Slow.θ_sq (m t)
  have hap : ∀ᶠ s in 𝓝 t, 0 < (m s).a ∧ 0 < (m s).pL ∧ 0 < 1 - (m s).ecosE (E s) := by
    have hp0 : 0 < (m t).pL := lt_of_lt_of_le (by norm_num) H.per
    have hpc : ContinuousAt (fun s => (m s).pL) t := (H.ha.continuousAt).mul H.heL.continuousAt
    have hr0 : 0 < 1 - (m t).ecosE (E t) := lt_of_lt_of_le (by norm_num) r1
    filter_upwards [H.ha.continuousAt.eventually (lt_mem_nhds ha0), hpc.eventually (lt_mem_nhds hp0),
      H.hρ.continuousAt.eventually (lt_mem_nhds hr0)] with s h1 h2 h3
    exact ⟨h1, h2, h3⟩
  set na := (m t).n * (m t).a with hna'
  have hna : 0 < na := by positivity
  have kθ : |k2 * (1 - (m t).θ ^ 2)| ≤ 0.000542 * 1 := abs_mul_bd Slow.k2_small (by rw [abs_le]; constructor <;> linarith)
  have kc : |k2 * (3 / 2 * (1 - 3 * (m t).θ ^ 2))| ≤ 0.000542 * 3 := abs_mul_bd Slow.k2_small (by rw [abs_le]; constructor <;> linarith)
  -- the factor of the perturbations
  have hw : Mild (fun s => ke / Real.sqrt (m s).a * (1 / (m s).a) * (1 / (m s).pL)) t (1.0021 * na) (0.0021 * na) :=
    ((hS.mul H.invA).mul H.invP).mono (by norm_num at *; linarith) (by norm_num at *; linarith)
  have hNna : na * N ≤ na * 3.34 := by gcongr
  have hrd : Mild (fun s => (m s).rdotk (E s)) t (0.82 * na) (2.76 * na) := by
    obtain ⟨f', f1, f2, f3⟩ := hS.mul (hσm.mul hi)
    obtain ⟨g', g1, g2, g3⟩ := (hw.mul hs2).const_mul kθ
    have e : ∀ s, 0 < (m s).a → 0 < (m s).pL → 0 < 1 - (m s).ecosE (E s) → (m s).rdotk (E s) =
        ke / Real.sqrt (m s).a * ((m s).esinE (E s) * (1 / (1 - (m s).ecosE (E s)))) -
        k2 * (1 - (m t).θ ^ 2) * (ke / Real.sqrt (m s).a * (1 / (m s).a) * (1 / (m s).pL) * (m s).sin2u (E s)) := by
      intro s h1 h2 h3
      have hq := Real.sqrt_pos.mpr h1
      have hq2 : Real.sqrt (m s).a ^ 2 = (m s).a := Real.sq_sqrt h1.le
      unfold Mean.rdotk Mean.rdot Mean.r
      rw [hSe s h1, H.θ_const s]
      rw [show ke * Real.sqrt (m s).a = ke / Real.sqrt (m s).a * (m s).a by field_simp; rw [hq2], hSe s h1]
      field_simp
    refine ⟨_, (f1.sub g1).congr_of_eventuallyEq ?_, ?_, ?_⟩
    · filter_upwards [hap] with s hs
      exact e s hs.1 hs.2.1 hs.2.2
    · refine (abs_sub_bd f2 g2).trans ?_
      norm_num at *; linarith
    · show |(m t).rdotk (E t)| ≤ _
      obtain ⟨q1, q2, q3⟩ := hap.self_of_nhds
      rw [e t q1 q2 q3]
      refine (abs_sub_bd f3 g3).trans ?_
      norm_num at *; linarith
  have hrf : Mild (fun s => (m s).rfdotk (E s)) t (1.822 * na) (2.76 * na) := by
    obtain ⟨f', f1, f2, f3⟩ := hS.mul (H.beta.mul hi)
    obtain ⟨g', g1, g2, g3⟩ := (hw.mul hc2).const_mul kθ
    obtain ⟨w', w1, w2, w3⟩ := hw.const_mul kc
    have e : ∀ s, 0 < (m s).a → 0 < (m s).pL → 0 < 1 - (m s).ecosE (E s) → (m s).rfdotk (E s) =
        ke / Real.sqrt (m s).a * (Real.sqrt (1 - (m s).eL2) * (1 / (1 - (m s).ecosE (E s)))) +
        k2 * (1 - (m t).θ ^ 2) * (ke / Real.sqrt (m s).a * (1 / (m s).a) * (1 / (m s).pL) * (m s).cos2u (E s)) -
        k2 * (3 / 2 * (1 - 3 * (m t).θ ^ 2)) * (ke / Real.sqrt (m s).a * (1 / (m s).a) * (1 / (m s).pL)) := by
      intro s h1 h2 h3
      have hq := Real.sqrt_pos.mpr h1
      have hq2 : Real.sqrt (m s).a ^ 2 = (m s).a := Real.sq_sqrt h1.le
      have hp : ke * Real.sqrt (m s).pL = ke / Real.sqrt (m s).a * (m s).a * Real.sqrt (1 - (m s).eL2) := by
        unfold Mean.pL; rw [Real.sqrt_mul h1.le]; field_simp; rw [hq2]; ring
      unfold Mean.rfdotk Mean.rfdot Mean.r
      rw [hp, hSe s h1, H.θ_const s]
      field_simp; ring
    refine ⟨_, ((f1.add g1).sub w1).congr_of_eventuallyEq ?_, ?_, ?_⟩
    · filter_upwards [hap] with s hs
      exact e s hs.1 hs.2.1 hs.2.2
    · refine (abs_sub_bd (abs_add_bd f2 g2) w2).trans ?_
      norm_num at *; linarith
    · show |(m t).rfdotk (E t)| ≤ _
      obtain ⟨q1, q2, q3⟩ := hap.self_of_nhds
      rw [e t q1 q2 q3]
      refine (abs_sub_bd (abs_add_bd f3 g3) w3).trans ?_
      norm_num at *; linarith
  obtain ⟨f', f1, f2, f3⟩ := hrd.mul hUm
  obtain ⟨g', g1, g2, g3⟩ := hrf.mul hVm
  refine ⟨_, ((f1.add g1).mul_const (kmPerRadius / 60)), ?_⟩
  have hR : (0:ℝ) < kmPerRadius := by unfold kmPerRadius; norm_num
  refine (abs_mul_bd (abs_add_bd f2 g2) (show |kmPerRadius / 60| ≤ kmPerRadius / 60 by rw [abs_of_pos (by positivity)])).trans ?_
  rw [show 2.76 * na * 1 + 0.82 * na * 3.38 + (2.76 * na * 1 + 1.822 * na * 3.38) = 14.44996 * na by ring]
  calc _ ≤ 15 * na * (kmPerRadius / 60) := by gcongr; norm_num
    _ = _ := by ring

/-- rate of the velocity when only the mean longitude moves -/
theorem velocity_rate {m : Mean} (h : Fair m) (t : ℝ) (j : Fin 3) :
    ∃ p', HasDerivAt (fun s => (shift m s).velocityKmS (keplerRoot (shift m s)) j) p' t ∧ |p'| ≤ 15 * (m.n * m.a * kmPerRadius / 60) :=
  (slow_shift h t).velocity_rate j

/-- A nearly exact solution of Kepler's equation gives nearly the same state. -/
theorem near_root {m : Mean} (h : Fair m) {E ε : ℝ} (hE : |m.kepler E| ≤ ε) (j : Fin 3) :
    |m.positionKm E j - m.positionKm (keplerRoot m) j| ≤ 2.7 * (m.a * kmPerRadius) * ε ∧
    |m.velocityKmS E j - m.velocityKmS (keplerRoot m) j| ≤ 15 * (m.n * m.a * kmPerRadius / 60) * ε := by
  have hR : (0:ℝ) < kmPerRadius := by unfold kmPerRadius; norm_num
  have ha0 : 0 < m.a := by have := h.axis; linarith
  have hn : 0 < m.n := (slow_shift h 0).n_pos
  set s := -m.kepler E with hs
  have h1 : keplerRoot (shift m s) = E := root_unique (shift m s) h.ecc (by rw [kepler_shift, hs]; ring)
  have h0 : shift m 0 = m := by unfold shift; rw [add_zero]
  have hse : |s - 0| ≤ ε := by rw [sub_zero, hs, abs_neg]; exact hE
  have bp' : ∀ t, ∃ p', HasDerivAt (fun s => (shift m s).positionKm (keplerRoot (shift m s)) j) p' t ∧ |p'| ≤ 2.7 * (m.a * kmPerRadius) :=
    fun t => (slow_shift h t).position_rate_le j
  choose p hp bp using bp'
  choose v hv bv using fun t => velocity_rate h t j
  have k1 := lipschitz hp bp 0 s
  have k2 := lipschitz hv bv 0 s
  rw [h1, h0] at k1 k2
  exact ⟨k1.trans (by gcongr), k2.trans (by gcongr)⟩

/-! ## Slowly changing mean elements -/

theorem fair_of {m : Mean} (he : 0 ≤ m.e ∧ m.e ≤ 0.44) (hp : 1 ≤ m.a * (1 - m.e)) : Fair m ∧ 1 ≤ m.a * (1 - m.e ^ 2) := by
  obtain ⟨he0, he1⟩ := he
  obtain ⟨h1, h2, -⟩ := perturbation_bounds m 0 ⟨he0, he1.trans (by norm_num)⟩ hp
  have hP : 1 ≤ m.a * (1 - m.e ^ 2) := by nlinarith
  refine ⟨⟨?_, h1, h2⟩, hP⟩
  set c := longAy m.i / (m.a * (1 - m.e ^ 2)) with hc
  have hc1 : |c| ≤ 0.00117 := by
    refine (abs_div_bd (longAy_small m.i) zero_lt_one hP).trans (by norm_num)
  have h3 : m.eL2 = m.e ^ 2 + 2 * m.e * (Real.sin m.ω * c) + c ^ 2 := by
    unfold Mean.eL2 Mean.axN Mean.ayN
    rw [← hc]
    linear_combination m.e ^ 2 * Real.sin_sq_add_cos_sq m.ω
  have h4 : |Real.sin m.ω * c| ≤ 0.00117 := (abs_mul_bd (Real.abs_sin_le_one _) hc1).trans (by norm_num)
  have h5 : m.e * (Real.sin m.ω * c) ≤ 0.44 * 0.00117 := by
    refine (le_abs_self _).trans (abs_mul_bd (by rwa [abs_of_nonneg he0]) h4)
  have h6 : c ^ 2 ≤ 0.00117 ^ 2 := by rw [← sq_abs]; gcongr
  have h7 : m.e ^ 2 ≤ 0.44 ^ 2 := by gcongr
  rw [h3]
  norm_num at *; linarith

/-- Rates of the mean elements, per minute, in comparison with the mean motion `N` (radians per minute). -/
structure Rates (m : ℝ → Mean) (t e' w' h' a' l' : ℝ) : Prop where
  he : HasDerivAt (fun s => (m s).e) e' t
  hw : HasDerivAt (fun s => (m s).ω) w' t
  hh : HasDerivAt (fun s => (m s).Ω) h' t
  ha : HasDerivAt (fun s => (m s).a) a' t
  hl : HasDerivAt (fun s => (m s).L) l' t
  be : |e'| ≤ 0.00005 * (m t).n
  bw : |(m t).e * w'| ≤ 0.00085 * (m t).n
  bh : |h'| ≤ 0.0018 * (m t).n
  ba : |a'| ≤ 0.0001 * (m t).a * (m t).n
  bl : |l' - h' - (m t).n| ≤ 0.0053 * (m t).n
  inc : ∀ s, (m s).i = (m t).i
  ecc : 0 ≤ (m t).e ∧ (m t).e ≤ 0.44
  per : 1 ≤ (m t).a * (1 - (m t).e)
  long : |longL (m t).i| ≤ 0.1

set_option maxHeartbeats 1000000 in
theorem Rates.slow {m : ℝ → Mean} {t e' w' h' a' l' : ℝ} (H : Rates m t e' w' h' a' l') :
    ∃ x' y' u' a'' h'', Slow (fun s => m (t + s / (m t).n)) (fun s => keplerRoot (m (t + s / (m t).n))) 0 x' y' u' a'' h'' := by
  obtain ⟨hF, hP⟩ := fair_of H.ecc H.per
  have hN : 0 < (m t).n := (slow_shift hF 0).n_pos
  set N := (m t).n with hNd
  obtain ⟨e0, e1⟩ := H.ecc
  have ha1 := hF.axis
  have hee : |(m t).e| ≤ 0.44 := by rwa [abs_of_nonneg e0]
  have t0 : t + 0 / N = t := by rw [zero_div, add_zero]
  have hsub : HasDerivAt (fun s : ℝ => t + s / N) (1 / N) 0 := by
    simpa using ((hasDerivAt_id (0:ℝ)).div_const N).const_add t
  have comp : ∀ {f : ℝ → ℝ} {f' : ℝ}, HasDerivAt f f' t → HasDerivAt (fun s => f (t + s / N)) (f' / N) 0 := by
    intro f f' hf
    have := HasDerivAt.comp (h := fun s : ℝ => t + s / N) (h₂ := f) 0 (by show HasDerivAt f f' (t + 0 / N); rw [t0]; exact hf) hsub
    simpa [Function.comp_def, div_eq_mul_inv] using this
  -- derivatives per minute
  have be : |e' / N| ≤ 0.00005 := by rw [abs_div, abs_of_pos hN, div_le_iff₀ hN]; exact H.be
  have bw : |(m t).e * w' / N| ≤ 0.00085 := by rw [abs_div, abs_of_pos hN, div_le_iff₀ hN]; exact H.bw
  have bh : |h' / N| ≤ 0.0018 := by rw [abs_div, abs_of_pos hN, div_le_iff₀ hN]; exact H.bh
  have ba : |a' / N| ≤ 0.0001 * (m t).a := by rw [abs_div, abs_of_pos hN, div_le_iff₀ hN]; exact H.ba
  have bl : |(l' - h') / N - 1| ≤ 0.0053 := by
    rw [show (l' - h') / N - 1 = (l' - h' - N) / N by field_simp, abs_div, abs_of_pos hN, div_le_iff₀ hN]; exact H.bl
  have hP0 : (m t).a * (1 - (m t).e ^ 2) ≠ 0 := by linarith
  have hx := H.he.mul H.hw.cos
  have hp := H.ha.mul ((H.he.pow 2).const_sub 1)
  have hi := hp.inv hP0
  have hy := (H.he.mul H.hw.sin).add (hi.const_mul (longAy (m t).i))
  have hu := (H.hl.add ((hi.const_mul (longL (m t).i)).mul hx)).sub H.hh
  have bc := Real.abs_cos_le_one (m t).ω
  have bs := Real.abs_sin_le_one (m t).ω
  -- the rate of the inverse of the semi-latus rectum
  set P := (m t).a * (1 - (m t).e ^ 2) with hPd
  set p' := a' * (1 - (m t).e ^ 2) + (m t).a * -(2 * (m t).e * e') with hp'
  have hg : 0.8 ≤ 1 - (m t).e ^ 2 := by norm_num at *; nlinarith
  have hpb : |p' / N| ≤ 0.0002 * P := by
    rw [show p' / N = a' / N * (1 - (m t).e ^ 2) + (m t).a * -(2 * (m t).e * (e' / N)) by rw [hp']; ring]
    refine (abs_add_bd (abs_mul_bd ba (le_of_eq (abs_of_nonneg (by linarith : (0:ℝ) ≤ 1 - (m t).e ^ 2))))
      (abs_mul_bd (le_of_eq (abs_of_nonneg (by linarith))) (abs_neg_bd (abs_mul_bd (abs_mul_bd (le_of_eq (abs_of_pos two_pos)) hee) be)))).trans ?_
    rw [hPd]
    have : (m t).a * 0.8 ≤ (m t).a * (1 - (m t).e ^ 2) := by gcongr
    norm_num at *; linarith
  have hib : |-p' / P ^ 2 / N| ≤ 0.0002 := by
    rw [show -p' / P ^ 2 / N = -(p' / N) / P ^ 2 by ring, abs_div, abs_neg, abs_of_nonneg (sq_nonneg P), div_le_iff₀ (by positivity)]
    nlinarith
  have hiv : |P⁻¹| ≤ 1 := by rw [abs_of_pos (by positivity)]; exact inv_le_one_of_one_le₀ hP
  have hxv : |(m t).e * Real.cos (m t).ω| ≤ 0.44 := (abs_mul_bd hee bc).trans (by norm_num)
  have hxb : |(e' * Real.cos (m t).ω + (m t).e * (-Real.sin (m t).ω * w')) / N| ≤ 0.0009 := by
    rw [show (e' * Real.cos (m t).ω + (m t).e * (-Real.sin (m t).ω * w')) / N = e' / N * Real.cos (m t).ω + -((m t).e * w' / N) * Real.sin (m t).ω by ring]
    exact (abs_add_bd (abs_mul_bd be bc) (abs_mul_bd (abs_neg_bd bw) bs)).trans (by norm_num)
  have dx : HasDerivAt (fun s => (m s).axN) (e' * Real.cos (m t).ω + (m t).e * (-Real.sin (m t).ω * w')) t := hx
  have dy : HasDerivAt (fun s => (m s).ayN) (e' * Real.sin (m t).ω + (m t).e * (Real.cos (m t).ω * w') + longAy (m t).i * (-p' / P ^ 2)) t := by
    refine (hy.congr_of_eventuallyEq (Eventually.of_forall fun s => ?_)).congr_deriv ?_
    · show _ = (m s).e * Real.sin (m s).ω + longAy (m t).i * ((m s).a * (1 - (m s).e ^ 2))⁻¹
      rw [← H.inc s, ← div_eq_mul_inv]; rfl
    · simp only [Pi.mul_apply, Pi.pow_apply, Nat.cast_ofNat, Nat.reduceSub, pow_one]
      rw [hp', hPd]
  have du : HasDerivAt (fun s => (m s).U) (l' + (longL (m t).i * (-p' / P ^ 2) * ((m t).e * Real.cos (m t).ω) +
        longL (m t).i * P⁻¹ * (e' * Real.cos (m t).ω + (m t).e * (-Real.sin (m t).ω * w'))) - h') t := by
    refine (hu.congr_of_eventuallyEq (Eventually.of_forall fun s => ?_)).congr_deriv ?_
    · show _ = (m s).L + longL (m t).i * ((m s).a * (1 - (m s).e ^ 2))⁻¹ * ((m s).e * Real.cos (m s).ω) - (m s).Ω
      rw [← H.inc s, ← div_eq_mul_inv]; rfl
    · simp only [Pi.mul_apply, Pi.pow_apply, Nat.cast_ofNat, Nat.reduceSub, pow_one, Pi.inv_apply]
      rw [hp', hPd]
  refine ⟨(e' * Real.cos (m t).ω + (m t).e * (-Real.sin (m t).ω * w')) / N,
    (e' * Real.sin (m t).ω + (m t).e * (Real.cos (m t).ω * w') + longAy (m t).i * (-p' / P ^ 2)) / N,
    (l' + (longL (m t).i * (-p' / P ^ 2) * ((m t).e * Real.cos (m t).ω) +
        longL (m t).i * P⁻¹ * (e' * Real.cos (m t).ω + (m t).e * (-Real.sin (m t).ω * w'))) - h') / N, a' / N, h' / N, ?_⟩
  exact {
    hx := comp (f := fun s => (m s).axN) dx
    hy := comp (f := fun s => (m s).ayN) dy
    hu := comp (f := fun s => (m s).U) du
    ha := comp (f := fun s => (m s).a) H.ha
    hh := comp (f := fun s => (m s).Ω) H.hh
    bx := hxb.trans (by norm_num)
    byy := by
      rw [show (e' * Real.sin (m t).ω + (m t).e * (Real.cos (m t).ω * w') + longAy (m t).i * (-p' / P ^ 2)) / N =
        e' / N * Real.sin (m t).ω + (m t).e * w' / N * Real.cos (m t).ω + longAy (m t).i * (-p' / P ^ 2 / N) by ring]
      exact (abs_add_bd (abs_add_bd (abs_mul_bd be bs) (abs_mul_bd bw bc)) (abs_mul_bd (longAy_small _) hib)).trans (by norm_num)
    bu := by
      rw [show (l' + (longL (m t).i * (-p' / P ^ 2) * ((m t).e * Real.cos (m t).ω) +
        longL (m t).i * P⁻¹ * (e' * Real.cos (m t).ω + (m t).e * (-Real.sin (m t).ω * w'))) - h') / N - 1 =
        ((l' - h') / N - 1) + (longL (m t).i * (-p' / P ^ 2 / N) * ((m t).e * Real.cos (m t).ω) +
        longL (m t).i * P⁻¹ * ((e' * Real.cos (m t).ω + (m t).e * (-Real.sin (m t).ω * w')) / N)) by ring]
      exact (abs_add_bd bl (abs_add_bd (abs_mul_bd (abs_mul_bd H.long hib) hxv) (abs_mul_bd (abs_mul_bd H.long hiv) hxb))).trans (by norm_num)
    ba := by show _ ≤ 0.0001 * (m (t + 0 / N)).a; rw [t0]; exact ba
    bh := bh
    inc := fun s => by show (m (t + s / N)).i = (m (t + 0 / N)).i; rw [t0]; exact H.inc _
    root := fun s => kepler_root _
    ecc := by show (m (t + 0 / N)).eL2 ≤ _; rw [t0]; exact hF.ecc
    axis := by show 1 ≤ (m (t + 0 / N)).a; rw [t0]; exact hF.axis
    per := by show 0.998 ≤ (m (t + 0 / N)).pL; rw [t0]; exact hF.per }

/-- The rate of the position of the theory, in km per minute, is the velocity of the theory up to 6 % of the mean orbital speed. -/
theorem Rates.motion {m : ℝ → Mean} {t e' w' h' a' l' : ℝ} (H : Rates m t e' w' h' a' l') (j : Fin 3) :
    ∃ p', HasDerivAt (fun s => (m s).positionKm (keplerRoot (m s)) j) p' t ∧
      |p' / 60 - (m t).velocityKmS (keplerRoot (m t)) j| ≤ 0.06 * ((m t).n * (m t).a * kmPerRadius / 60) ∧
      |p' / 60| ≤ 2.7 * ((m t).n * (m t).a * kmPerRadius / 60) := by
  obtain ⟨x', y', u', a'', h'', S⟩ := H.slow
  obtain ⟨hF, -⟩ := fair_of H.ecc H.per
  have hN : 0 < (m t).n := (slow_shift hF 0).n_pos
  obtain ⟨p', h1, h2⟩ := S.position_rate j
  have hv := S.velocity_le j
  set N := (m t).n with hNd
  have t0 : t + 0 / N = t := by rw [zero_div, add_zero]
  simp only [t0] at h2 hv
  rw [← hNd] at h2 hv
  have hsub : HasDerivAt (fun s : ℝ => (s - t) * N) N t := by
    simpa using ((hasDerivAt_id t).sub_const t).mul_const N
  have := HasDerivAt.comp (h := fun s : ℝ => (s - t) * N)
    (h₂ := fun s => (m (t + s / N)).positionKm (keplerRoot (m (t + s / N))) j) t (by
      show HasDerivAt _ _ ((t - t) * N); rw [sub_self, zero_mul]; exact h1) hsub
  refine ⟨p' * N, this.congr_of_eventuallyEq (Eventually.of_forall fun s => ?_), h2, ?_⟩
  · show _ = (m (t + (s - t) * N / N)).positionKm (keplerRoot (m (t + (s - t) * N / N))) j
    rw [show t + (s - t) * N / N = s by field_simp; ring]
  · rw [show p' * N / 60 = (p' * N / 60 - (m t).velocityKmS (keplerRoot (m t)) j) + (m t).velocityKmS (keplerRoot (m t)) j by ring]
    exact (abs_add_bd h2 hv).trans (le_of_eq (by ring))

/-- The rate of the velocity of the theory, in km/s per minute. -/
theorem Rates.acceleration {m : ℝ → Mean} {t e' w' h' a' l' : ℝ} (H : Rates m t e' w' h' a' l') (j : Fin 3) :
    ∃ p', HasDerivAt (fun s => (m s).velocityKmS (keplerRoot (m s)) j) p' t ∧
      |p'| ≤ 15 * ((m t).n * ((m t).n * (m t).a * kmPerRadius / 60)) := by
  obtain ⟨x', y', u', a'', h'', S⟩ := H.slow
  obtain ⟨hF, -⟩ := fair_of H.ecc H.per
  have hN : 0 < (m t).n := (slow_shift hF 0).n_pos
  obtain ⟨p', h1, h2⟩ := S.velocity_rate j
  set N := (m t).n with hNd
  have t0 : t + 0 / N = t := by rw [zero_div, add_zero]
  simp only [t0] at h2
  rw [← hNd] at h2
  have hsub : HasDerivAt (fun s : ℝ => (s - t) * N) N t := by
    simpa using ((hasDerivAt_id t).sub_const t).mul_const N
  have := HasDerivAt.comp (h := fun s : ℝ => (s - t) * N)
    (h₂ := fun s => (m (t + s / N)).velocityKmS (keplerRoot (m (t + s / N))) j) t (by
      show HasDerivAt _ _ ((t - t) * N); rw [sub_self, zero_mul]; exact h1) hsub
  refine ⟨p' * N, this.congr_of_eventuallyEq (Eventually.of_forall fun s => ?_), ?_⟩
  · show _ = (m (t + (s - t) * N / N)).velocityKmS (keplerRoot (m (t + (s - t) * N / N))) j
    rw [show t + (s - t) * N / N = s by field_simp; ring]
  · exact (abs_mul_bd h2 (le_of_eq (abs_of_pos hN))).trans (le_of_eq (by ring))

end Sat
