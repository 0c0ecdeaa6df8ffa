import Verif.Props.MotionSecular
/-!
# C88: the velocity returned is the rate of change of the position returned

Exact arithmetic.  The positions that a record gives at all times lie on a smooth curve (up to a twentieth of a millimetre, the tolerance of the
solution of Kepler's equation), and the velocities are the rates of that curve up to 6.1 % of the mean orbital speed.
-/

namespace Sat
open Spec.R3 Filter Topology

/-- components of a vector -/
def Vec3.coord (v : Vec3 ℝ) : Fin 3 → ℝ := ![v.x, v.y, v.z]

theorem coord_vec (f : Fin 3 → ℝ) (j : Fin 3) : (vec f).coord j = f j := by
  fin_cases j <;> rfl

/-- A curve `X` (km, minutes) which at time `t` has the rate `X'`, passes within `3e-8 a` km of the position `p`, and whose rate differs by at most
6.1 % of the mean orbital speed `n a` from the velocity `w` (km/s). -/
def Tangent (X : ℝ → Fin 3 → ℝ) (t : ℝ) (n a : ℝ) (p w : Vec3 ℝ) : Prop :=
  ∃ X' : Fin 3 → ℝ, (∀ j, HasDerivAt (fun s => X s j) (X' j) t) ∧
    (∀ j, |p.coord j - X t j| ≤ 3e-8 * a) ∧ (∀ j, |w.coord j - X' j / 60| ≤ 0.061 * (n * a * 6378.137 / 60))

theorem n_pos_of_axis {q : Orbit} (h : 1 ≤ q.a) : 0 < q.n := by
  have hk : (0:ℝ) < ke := by unfold ke; norm_num
  by_contra hc
  rcases eq_or_lt_of_le (not_lt.mp hc) with h0 | h0
  · unfold Orbit.a at h
    rw [h0, div_zero, Real.zero_rpow (by norm_num)] at h
    norm_num at h
  · have hx : ke / q.n < 0 := div_neg_of_pos_of_neg hk h0
    unfold Orbit.a at h
    rw [Real.rpow_def_of_neg hx] at h
    have hcos : Real.cos (2 / 3 * Real.pi) ≤ 0 := by
      apply Real.cos_nonpos_of_pi_div_two_le_of_le <;> nlinarith [Real.pi_pos]
    have := mul_nonpos_of_nonneg_of_nonpos (Real.exp_pos (Real.log (ke / q.n) * (2 / 3))).le hcos
    linarith

/-- The state computed from a nearly exact solution of Kepler's equation follows the curve of the exact solutions. -/
theorem tangent_of_rates {m : ℝ → Mean} {t e' w' h' a' l' : ℝ} (H : Rates m t e' w' h' a' l') {E : ℝ} (hE : |(m t).kepler E| ≤ 1.45e-12)
    {p w : Vec3 ℝ} (hp : p = vec ((m t).positionKm E)) (hw : w = vec ((m t).velocityKmS E)) {n a : ℝ} (ha0 : 0 ≤ a) (ha : (m t).a ≤ 1.001 * a)
    (hna : (m t).n * (m t).a ≤ 1.001 * (n * a)) :
    Tangent (fun s j => (m s).positionKm (keplerRoot (m s)) j) t n a p w := by
  obtain ⟨hF, -⟩ := fair_of H.ecc H.per
  choose X' h1 h2 h3 using fun j => H.motion j
  refine ⟨X', h1, fun j => ?_, fun j => ?_⟩
  · obtain ⟨k, -⟩ := near_root hF hE j
    rw [hp, coord_vec]
    refine k.trans ?_
    unfold kmPerRadius
    norm_num at *; linarith
  · obtain ⟨-, k⟩ := near_root hF hE j
    rw [hw, coord_vec]
    rw [show (m t).velocityKmS E j - X' j / 60 = ((m t).velocityKmS E j - (m t).velocityKmS (keplerRoot (m t)) j) -
      (X' j / 60 - (m t).velocityKmS (keplerRoot (m t)) j) by ring]
    refine (abs_sub_bd k (h2 j)).trans ?_
    have hn0 : 0 < (m t).n := (slow_shift hF 0).n_pos
    have ha1 := hF.axis
    have : 0 < (m t).n * (m t).a := by positivity
    unfold kmPerRadius
    norm_num at *; linarith

/-- **C88**, without drag.  For every record of a near-earth orbit without drag (eccentricity at most 0.43, perigee above the surface, inclination
below 171 degrees) there is one curve, differentiable at all times, on which all positions lie and whose rate is the velocity. -/
theorem C88_velocity_is_rate (s s' : Satrec ℝ) (o : SGP4InitOptions ℝ) (r : Except SGP4Error (SGP4Result ℝ))
    (h : sgp4init s o = some (s', r)) (hN : s'.method = .N) (hb : o.xbstar = 0) (he : 0 ≤ o.xecco ∧ o.xecco ≤ 0.43)
    (hi : 1 / 100 ≤ 1 + Real.cos o.xinclo) :
    let n := recoveredMotion o.xno o.xecco o.xinclo
    let a := (ke / n) ^ (2 / 3 : ℝ)
    1.0001 ≤ a * (1 - o.xecco) →
    ∃ X : ℝ → Fin 3 → ℝ, (∀ j, Differentiable ℝ fun t => X t j) ∧
      (∀ t₁ t₂ j, |X t₁ j - X t₂ j| ≤ 2.7 * (n * a * 6378.137) * |t₁ - t₂|) ∧
      ∀ t s'' v, sgp4 s' t = some (s'', .ok v) → Tangent X t n a v.position v.velocity := by
  intro n a hp
  set q : Orbit := ⟨n, o.xecco, o.xinclo, o.xargpo, o.xmo, o.xbstar⟩ with hq
  have he1 : 0 ≤ o.xecco ∧ o.xecco < 1 := ⟨he.1, lt_of_le_of_lt he.2 (by norm_num)⟩
  have haq : q.a = a := rfl
  have ha1 : 1 ≤ q.a := by
    rw [haq]; by_contra hc; push Not at hc; norm_num at *; nlinarith
  have hn : 0 < q.n := n_pos_of_axis ha1
  have R := rates_noDrag (q := q) hb hn he (by rw [haq]; exact hp) hi o.xnodeo
  have hma : ∀ t, (q.mean o.xnodeo t).a = a := fun t => aT_noDrag (q := q) hb t
  have hmn : ∀ t, (q.mean o.xnodeo t).n = n := fun t => by
    show ke / (q.mean o.xnodeo t).a ^ (3 / 2 : ℝ) = n
    rw [hma, ← haq, motion_of_axis hn]
  have hna : 0 < n * a := mul_pos hn (by rw [← haq]; linarith)
  refine ⟨fun t j => (q.mean o.xnodeo t).positionKm (keplerRoot (q.mean o.xnodeo t)) j, ?_, ?_, ?_⟩
  · intro j t
    obtain ⟨p', hp', -⟩ := (R t).motion j
    exact hp'.differentiableAt
  · intro t₁ t₂ j
    choose p' h1 h2 h3 using fun t => (R t).motion j
    refine lipschitz h1 (fun t => ?_) t₂ t₁
    have := h3 t
    rw [hma, hmn, abs_div, abs_of_pos (by norm_num : (0:ℝ) < 60), div_le_iff₀ (by norm_num)] at this
    refine this.trans (le_of_eq ?_)
    unfold kmPerRadius; ring
  · intro t s'' v ht
    obtain ⟨k, -, k2, k3, kp, kv⟩ := C64_near_earth_published s s' s'' o r t v h he1 hN ht
    obtain ⟨hF, -⟩ := fair_of (R t).ecc (R t).per
    obtain ⟨-, hres, -⟩ := C65_kepler_converges _ hF.ecc k k2 k3
    refine tangent_of_rates (R t) hres kp kv (by rw [← haq]; linarith) ?_ ?_
    · rw [hma]; norm_num at *; linarith
    · rw [hma, hmn]; norm_num at *; linarith

/-- **C88**, with drag.  For every record of an ordinary low orbit (eccentricity between 0.001 and 0.43, semi-major axis at most two earth radii,
perigee at least 240 km high, inclination below 171 degrees, drag term at most 0.001 and not extreme for the eccentricity), the same at all times
for which drag term times minutes is at most two.  Below 400 km the drag term counts `lowness ^ 5` times. -/
theorem C88_velocity_is_rate_with_drag (s s' : Satrec ℝ) (o : SGP4InitOptions ℝ) (r : Except SGP4Error (SGP4Result ℝ))
    (h : sgp4init s o = some (s', r)) (hN : s'.method = .N) (he : 0.001 ≤ o.xecco ∧ o.xecco ≤ 0.43)
    (hi : 1 / 100 ≤ 1 + Real.cos o.xinclo) :
    let n := recoveredMotion o.xno o.xecco o.xinclo
    let a := (ke / n) ^ (2 / 3 : ℝ)
    let L := Spec.lowness (a * (1 - o.xecco))
    a ≤ 2 → 1 + 240 / 6378.137 ≤ a * (1 - o.xecco) → |o.xbstar| * L ^ 5 ≤ 0.001 → |o.xbstar| * L ^ 5 ≤ 5000 * o.xecco ^ 2 →
    ∃ X : ℝ → Fin 3 → ℝ, ∀ t, |o.xbstar * t| * L ^ 5 ≤ 2 →
      (∀ j, DifferentiableAt ℝ (fun t => X t j) t) ∧
      ∀ s'' v, sgp4 s' t = some (s'', .ok v) → Tangent X t n a v.position v.velocity := by
  intro n a L ha2 hp hd1 hd2
  set q : Orbit := ⟨n, o.xecco, o.xinclo, o.xargpo, o.xmo, o.xbstar⟩ with hq
  have he0 : 0 ≤ o.xecco := le_trans (by norm_num) he.1
  have he1 : 0 ≤ o.xecco ∧ o.xecco < 1 := ⟨he0, lt_of_le_of_lt he.2 (by norm_num)⟩
  have haq : q.a = a := rfl
  have ha1 : 1 ≤ q.a := by
    rw [haq]; by_contra hc; push Not at hc; norm_num at *; nlinarith
  have hn : 0 < q.n := n_pos_of_axis ha1
  have hna : 0 < n * a := mul_pos hn (by rw [← haq]; linarith)
  refine ⟨fun t j => (q.mean o.xnodeo t).positionKm (keplerRoot (q.mean o.xnodeo t)) j, ?_⟩
  intro t ht
  have Q : Quiet q t :=
    { mot := hn, ecc := ⟨he0, he.2⟩, side := Or.inr hd2, incl := hi, drag := hd1.trans (by norm_num), axis := ha2, per := hp, time := ht }
  obtain ⟨e', w', h', a', l', D⟩ := Q.drift o.xnodeo
  have hf : 1 / 10 ^ 6 < q.eRaw t := by
    have := (abs_le.mp D.ve).1
    have hqe : q.e = o.xecco := rfl
    rw [hqe] at this
    norm_num at *; linarith
  obtain ⟨e', w', h', a', l', R⟩ := Q.rates o.xnodeo hf
  refine ⟨fun j => ?_, ?_⟩
  · obtain ⟨p', hp', -⟩ := R.motion j
    exact hp'.differentiableAt
  · intro s'' v hv
    obtain ⟨k, -, k2, k3, kp, kv⟩ := C64_near_earth_published s s' s'' o r t v h he1 hN hv
    obtain ⟨hF, -⟩ := fair_of R.ecc R.per
    obtain ⟨-, hres, -⟩ := C65_kepler_converges _ hF.ecc k k2 k3
    obtain ⟨x1, xT, xN, -, -⟩ := Q.series o.xnodeo
    obtain ⟨x2, x3⟩ := abs_le.mp x1
    have hy : 0 < 1 - Quiet.dragPoly q t := by norm_num at *; linarith
    refine tangent_of_rates R hres kp kv (by rw [← haq]; linarith) ?_ ?_
    · have := (abs_le.mp D.va).2
      show q.aT t ≤ _
      rw [haq] at this
      rw [haq] at ha1
      norm_num at *; linarith
    · have e : (q.mean o.xnodeo t).n * (q.mean o.xnodeo t).a = n * a / (1 - Quiet.dragPoly q t) := by
        rw [xN]
        show _ * q.aT t = _
        rw [xT]
        show n / _ * (a * _) = _
        field_simp
      show (q.mean o.xnodeo t).n * (q.mean o.xnodeo t).a ≤ _
      rw [e, div_le_iff₀ hy]
      norm_num at *; nlinarith

/-- C88: a 100 min orbit without drag: successful at every time, and all states on one curve -/
example (s : Satrec ℝ) : ∃ s' r, sgp4init s (sampleSet 1.1 0.05 0) = some (s', r) ∧ (∀ t, ∃ s'' v, sgp4 s' t = some (s'', .ok v)) ∧
    ∃ X : ℝ → Fin 3 → ℝ, (∀ j, Differentiable ℝ fun t => X t j) ∧
      ∀ t s'' v, sgp4 s' t = some (s'', .ok v) → Tangent X t (ke / 1.1 ^ 3) (1.1 ^ 2) v.position v.velocity := by
  obtain ⟨h1, h2⟩ := sample_near (b := 1.1) ⟨by norm_num, by norm_num⟩ 0.05 0
  obtain ⟨s', h⟩ := sgp4init_outcome s (sampleSet 1.1 0.05 0)
  have he : (1 : ℝ) / 10 ^ 6 ≤ 0.05 ∧ (0.05 : ℝ) ≤ 1 / 2 := by norm_num
  have hN := near_of_motion h (by show (0 : ℝ) ≤ 0.05 ∧ (0.05 : ℝ) < 1; norm_num) h2
  have hi : (1:ℝ) / 100 ≤ 1 + Real.cos (sampleSet 1.1 0.05 0).xinclo := by
    have := sample_cos
    have : |Real.cos (Real.arccos (1 / Real.sqrt 3))| ≤ 0.9 := abs_le_of_sq_le_sq (by rw [this]; norm_num) (by norm_num)
    show 1 / 100 ≤ 1 + Real.cos (Real.arccos (1 / Real.sqrt 3))
    have := (abs_le.mp this).1
    norm_num at *; linarith
  have k := C88_velocity_is_rate s s' (sampleSet 1.1 0.05 0) _ h hN rfl (by show (0 : ℝ) ≤ 0.05 ∧ (0.05 : ℝ) ≤ 0.43; norm_num) hi
  dsimp only at k
  rw [sample_motion, sample_axis (by norm_num)] at k
  obtain ⟨X, k1, -, k3⟩ := k (by show (1.0001 : ℝ) ≤ 1.1 ^ 2 * (1 - 0.05); norm_num)
  refine ⟨s', _, h, fun t => ?_, X, k1, k3⟩
  obtain ⟨s'', v, hv, -⟩ := C66_accepted_without_drag s s' (sampleSet 1.1 0.05 0) _ t h rfl he h1 h2
    (by rw [sample_motion, sample_axis (by norm_num)]; show (1.01 : ℝ) ≤ 1.1 ^ 2 * (1 - 0.05); norm_num)
  exact ⟨s'', v, hv⟩

/-- C88: an orbit with drag, which propagates at the epoch -/
example : ∃ s s' r, sgp4init s sampleNear = some (s', r) ∧ (∃ s'' v, sgp4 s' 0 = some (s'', .ok v)) ∧
    ∃ X : ℝ → Fin 3 → ℝ, ∀ t, |0.0001 * t| ≤ 2 →
      ∀ s'' v, sgp4 s' t = some (s'', .ok v) → Tangent X t (ke / 1.3 ^ 3) (1.3 ^ 2) v.position v.velocity := by
  obtain ⟨s, s', s'', v, h, hN, hv⟩ := sampleNear_propagates
  have hi : (1:ℝ) / 100 ≤ 1 + Real.cos sampleNear.xinclo := by
    have := sample_cos
    have : |Real.cos (Real.arccos (1 / Real.sqrt 3))| ≤ 0.9 := abs_le_of_sq_le_sq (by rw [this]; norm_num) (by norm_num)
    show 1 / 100 ≤ 1 + Real.cos (Real.arccos (1 / Real.sqrt 3))
    have := (abs_le.mp this).1
    norm_num at *; linarith
  have k := C88_velocity_is_rate_with_drag s s' sampleNear _ h hN (by show (0.001 : ℝ) ≤ 0.1 ∧ (0.1 : ℝ) ≤ 0.43; norm_num) hi
  dsimp only at k
  have e1 : recoveredMotion sampleNear.xno sampleNear.xecco sampleNear.xinclo = ke / 1.3 ^ 3 := sample_motion 1.3 0.1 0.0001
  rw [e1, sample_axis (by norm_num), Spec.lowness_high (by show (1 + 400 / 6378.137 : ℝ) ≤ 1.3 ^ 2 * (1 - 0.1); norm_num), one_pow] at k
  obtain ⟨X, k1⟩ := k (by norm_num) (by show (1 + 240 / 6378.137 : ℝ) ≤ 1.3 ^ 2 * (1 - 0.1); norm_num)
    (by show |(0.0001:ℝ)| * 1 ≤ 0.001; rw [abs_of_pos (by norm_num)]; norm_num) (by show |(0.0001:ℝ)| * 1 ≤ 5000 * 0.1 ^ 2; rw [abs_of_pos (by norm_num)]; norm_num)
  exact ⟨s, s', _, h, ⟨s'', v, hv⟩, X, fun t ht => (k1 t (by rw [mul_one]; exact ht)).2⟩

end Sat
