import Verif.Props.MotionForce
import Verif.Props.Velocity
/-!
# C89: the satellite falls towards the earth as Newton's law of attraction says

Exact arithmetic.  The states returned by the propagator at all times lie on two differentiable curves, one of positions and one of velocities.  The
rate of the first is the second up to 6.1 % of the mean orbital speed; the rate of the second is the attraction of the earth, `- mu x / |x|^3`, up to
6.5 % of its size: the oblateness of the earth (half a per cent), the precession of the orbit and the terms that the theory leaves out.
-/

namespace Sat
open Spec.R3 Filter Topology

/-- distance from the centre of the earth -/
noncomputable def distance (x : Fin 3 → ℝ) : ℝ := Real.sqrt (x 0 ^ 2 + x 1 ^ 2 + x 2 ^ 2)

/-- the attraction (km/s²) that the earth, of gravitational parameter 398600.5 km³/s², exerts at the position `x` (km) -/
noncomputable def newton (x : Fin 3 → ℝ) (j : Fin 3) : ℝ := -398600.5 * x j / distance x ^ 3

/-- At time `t` (minutes) the curves `X` (km) and `W` (km/s) have rates, the rate of `X` is `W` up to 6.1 % of the mean orbital speed `n a` (radii per
minute), the rate of `W` is the attraction of the earth up to 6.5 % of its size, and `X` and `W` are the position `p` and the velocity `w` up to
`3e-8 a` km and to `3e-11` of the mean orbital speed. -/
def Falls (X W : ℝ → Fin 3 → ℝ) (t : ℝ) (n a : ℝ) (p w : Vec3 ℝ) : Prop :=
  ∃ X' W' : Fin 3 → ℝ, (∀ j, HasDerivAt (fun s => X s j) (X' j) t) ∧ (∀ j, HasDerivAt (fun s => W s j) (W' j) t) ∧
    (∀ j, |X' j / 60 - W t j| ≤ 0.061 * (n * a * 6378.137 / 60)) ∧
    (∀ j, |W' j / 60 - newton (X t) j| ≤ 0.065 * (398600.5 / distance (X t) ^ 2)) ∧
    (∀ j, |p.coord j - X t j| ≤ 3e-8 * a) ∧ (∀ j, |w.coord j - W t j| ≤ 3e-11 * (n * a * 6378.137 / 60))

theorem falls_of_rates {m : ℝ → Mean} {t e' w' h' a' l' : ℝ} (H : Rates m t e' w' h' a' l') {E : ℝ} (hE : |(m t).kepler E| ≤ 1.45e-12)
    {p w : Vec3 ℝ} (hp : p = vec ((m t).positionKm E)) (hw : w = vec ((m t).velocityKmS E)) {n a : ℝ} (ha0 : 0 ≤ a) (ha : (m t).a ≤ 1.001 * a)
    (hna : (m t).n * (m t).a ≤ 1.001 * (n * a)) :
    Falls (fun s j => (m s).positionKm (keplerRoot (m s)) j) (fun s j => (m s).velocityKmS (keplerRoot (m s)) j) t n a p w := by
  obtain ⟨hF, -⟩ := fair_of H.ecc H.per
  have hn0 : 0 < (m t).n := (slow_shift hF 0).n_pos
  have ha1 := hF.axis
  have hnap : 0 < (m t).n * (m t).a := by positivity
  choose X' h1 h2 h3 using fun j => H.motion j
  choose W' k1 k2 using fun j => H.attraction j
  refine ⟨X', W', h1, k1, fun j => ?_, fun j => ?_, fun j => ?_, fun j => ?_⟩
  · refine (h2 j).trans ?_
    unfold kmPerRadius
    norm_num at *; linarith
  · have := k2 j
    dsimp only at this
    unfold newton
    show |W' j / 60 - -398600.5 * (m t).positionKm (keplerRoot (m t)) j / length ((m t).positionKm (keplerRoot (m t))) ^ 3| ≤
      0.065 * (398600.5 / length ((m t).positionKm (keplerRoot (m t))) ^ 2)
    rw [neg_mul, neg_div, sub_neg_eq_add]
    exact this
  · obtain ⟨k, -⟩ := near_root hF hE j
    rw [hp, coord_vec]
    refine k.trans ?_
    unfold kmPerRadius
    norm_num at *; linarith
  · obtain ⟨-, k⟩ := near_root hF hE j
    rw [hw, coord_vec]
    refine k.trans ?_
    unfold kmPerRadius
    norm_num at *; linarith

/-- **C89**, without drag.  For every record of a near-earth orbit without drag (eccentricity at most 0.43, perigee above the surface, inclination
below 171 degrees) the states at all times lie on one pair of differentiable curves that obey Newton's law. -/
theorem C89_attraction (s s' : Satrec ℝ) (o : SGP4InitOptions ℝ) (r : Except SGP4Error (SGP4Result ℝ))
    (h : sgp4init s o = some (s', r)) (hN : s'.method = .N) (hb : o.xbstar = 0) (he : 0 ≤ o.xecco ∧ o.xecco ≤ 0.43)
    (hi : 1 / 100 ≤ 1 + Real.cos o.xinclo) :
    let n := recoveredMotion o.xno o.xecco o.xinclo
    let a := (ke / n) ^ (2 / 3 : ℝ)
    1.0001 ≤ a * (1 - o.xecco) →
    ∃ X W : ℝ → Fin 3 → ℝ, (∀ j, Differentiable ℝ fun t => X t j) ∧ (∀ j, Differentiable ℝ fun t => W t j) ∧
      ∀ t s'' v, sgp4 s' t = some (s'', .ok v) → Falls X W t n a v.position v.velocity := by
  intro n a hp
  set q : Orbit := ⟨n, o.xecco, o.xinclo, o.xargpo, o.xmo, o.xbstar⟩ with hq
  have he1 : 0 ≤ o.xecco ∧ o.xecco < 1 := ⟨he.1, lt_of_le_of_lt he.2 (by norm_num)⟩
  have haq : q.a = a := rfl
  have ha1 : 1 ≤ q.a := by
    rw [haq]; by_contra hc; push Not at hc; norm_num at *; nlinarith
  have hn : 0 < q.n := n_pos_of_axis ha1
  have R := rates_noDrag (q := q) hb hn he (by rw [haq]; exact hp) hi o.xnodeo
  have hma : ∀ t, (q.mean o.xnodeo t).a = a := fun t => aT_noDrag (q := q) hb t
  have hmn : ∀ t, (q.mean o.xnodeo t).n = n := fun t => by
    show ke / (q.mean o.xnodeo t).a ^ (3 / 2 : ℝ) = n
    rw [hma, ← haq, motion_of_axis hn]
  have hna : 0 < n * a := mul_pos hn (by rw [← haq]; linarith)
  refine ⟨fun t j => (q.mean o.xnodeo t).positionKm (keplerRoot (q.mean o.xnodeo t)) j,
    fun t j => (q.mean o.xnodeo t).velocityKmS (keplerRoot (q.mean o.xnodeo t)) j, ?_, ?_, ?_⟩
  · intro j t
    obtain ⟨p', hp', -⟩ := (R t).motion j
    exact hp'.differentiableAt
  · intro j t
    obtain ⟨p', hp', -⟩ := (R t).attraction j
    exact hp'.differentiableAt
  · intro t s'' v ht
    obtain ⟨k, -, k2, k3, kp, kv⟩ := C64_near_earth_published s s' s'' o r t v h he1 hN ht
    obtain ⟨hF, -⟩ := fair_of (R t).ecc (R t).per
    obtain ⟨-, hres, -⟩ := C65_kepler_converges _ hF.ecc k k2 k3
    refine falls_of_rates (R t) hres kp kv (by rw [← haq]; linarith) ?_ ?_
    · rw [hma]; norm_num at *; linarith
    · rw [hma, hmn]; norm_num at *; linarith

/-- **C89**, with drag, for the orbits and times of C88. -/
theorem C89_attraction_with_drag (s s' : Satrec ℝ) (o : SGP4InitOptions ℝ) (r : Except SGP4Error (SGP4Result ℝ))
    (h : sgp4init s o = some (s', r)) (hN : s'.method = .N) (he : 0.001 ≤ o.xecco ∧ o.xecco ≤ 0.43)
    (hi : 1 / 100 ≤ 1 + Real.cos o.xinclo) :
    let n := recoveredMotion o.xno o.xecco o.xinclo
    let a := (ke / n) ^ (2 / 3 : ℝ)
    let L := Spec.lowness (a * (1 - o.xecco))
    a ≤ 2 → 1 + 240 / 6378.137 ≤ a * (1 - o.xecco) → |o.xbstar| * L ^ 5 ≤ 0.001 → |o.xbstar| * L ^ 5 ≤ 5000 * o.xecco ^ 2 →
    ∃ X W : ℝ → Fin 3 → ℝ, ∀ t, |o.xbstar * t| * L ^ 5 ≤ 2 →
      (∀ j, DifferentiableAt ℝ (fun t => X t j) t) ∧ (∀ j, DifferentiableAt ℝ (fun t => W t j) t) ∧
      ∀ s'' v, sgp4 s' t = some (s'', .ok v) → Falls X W t n a v.position v.velocity := by
  intro n a L ha2 hp hd1 hd2
  set q : Orbit := ⟨n, o.xecco, o.xinclo, o.xargpo, o.xmo, o.xbstar⟩ with hq
  have he0 : 0 ≤ o.xecco := le_trans (by norm_num) he.1
  have he1 : 0 ≤ o.xecco ∧ o.xecco < 1 := ⟨he0, lt_of_le_of_lt he.2 (by norm_num)⟩
  have haq : q.a = a := rfl
  have ha1 : 1 ≤ q.a := by
    rw [haq]; by_contra hc; push Not at hc; norm_num at *; nlinarith
  have hn : 0 < q.n := n_pos_of_axis ha1
  have hna : 0 < n * a := mul_pos hn (by rw [← haq]; linarith)
  refine ⟨fun t j => (q.mean o.xnodeo t).positionKm (keplerRoot (q.mean o.xnodeo t)) j,
    fun t j => (q.mean o.xnodeo t).velocityKmS (keplerRoot (q.mean o.xnodeo t)) j, ?_⟩
  intro t ht
  have Q : Quiet q t :=
    { mot := hn, ecc := ⟨he0, he.2⟩, side := Or.inr hd2, incl := hi, drag := hd1.trans (by norm_num), axis := ha2, per := hp, time := ht }
  obtain ⟨e', w', h', a', l', D⟩ := Q.drift o.xnodeo
  have hf : 1 / 10 ^ 6 < q.eRaw t := by
    have := (abs_le.mp D.ve).1
    have hqe : q.e = o.xecco := rfl
    rw [hqe] at this
    norm_num at *; linarith
  obtain ⟨e', w', h', a', l', R⟩ := Q.rates o.xnodeo hf
  refine ⟨fun j => ?_, fun j => ?_, ?_⟩
  · obtain ⟨p', hp', -⟩ := R.motion j
    exact hp'.differentiableAt
  · obtain ⟨p', hp', -⟩ := R.attraction j
    exact hp'.differentiableAt
  · intro s'' v hv
    obtain ⟨k, -, k2, k3, kp, kv⟩ := C64_near_earth_published s s' s'' o r t v h he1 hN hv
    obtain ⟨hF, -⟩ := fair_of R.ecc R.per
    obtain ⟨-, hres, -⟩ := C65_kepler_converges _ hF.ecc k k2 k3
    obtain ⟨x1, xT, xN, -, -⟩ := Q.series o.xnodeo
    obtain ⟨x2, x3⟩ := abs_le.mp x1
    have hy : 0 < 1 - Quiet.dragPoly q t := by norm_num at *; linarith
    refine falls_of_rates R hres kp kv (by rw [← haq]; linarith) ?_ ?_
    · have := (abs_le.mp D.va).2
      show q.aT t ≤ _
      rw [haq] at this
      rw [haq] at ha1
      norm_num at *; linarith
    · have e : (q.mean o.xnodeo t).n * (q.mean o.xnodeo t).a = n * a / (1 - Quiet.dragPoly q t) := by
        rw [xN]
        show _ * q.aT t = _
        rw [xT]
        show n / _ * (a * _) = _
        field_simp
      show (q.mean o.xnodeo t).n * (q.mean o.xnodeo t).a ≤ _
      rw [e, div_le_iff₀ hy]
      norm_num at *; nlinarith

/-- C89: a 100 min orbit without drag: successful at every time, and all states on one curve -/
example (s : Satrec ℝ) : ∃ s' r, sgp4init s (sampleSet 1.1 0.05 0) = some (s', r) ∧ (∀ t, ∃ s'' v, sgp4 s' t = some (s'', .ok v)) ∧
    ∃ X W : ℝ → Fin 3 → ℝ, (∀ j, Differentiable ℝ fun t => X t j) ∧ (∀ j, Differentiable ℝ fun t => W t j) ∧
      ∀ t s'' v, sgp4 s' t = some (s'', .ok v) → Falls X W t (ke / 1.1 ^ 3) (1.1 ^ 2) v.position v.velocity := by
  obtain ⟨h1, h2⟩ := sample_near (b := 1.1) ⟨by norm_num, by norm_num⟩ 0.05 0
  obtain ⟨s', h⟩ := sgp4init_outcome s (sampleSet 1.1 0.05 0)
  have he : (1 : ℝ) / 10 ^ 6 ≤ 0.05 ∧ (0.05 : ℝ) ≤ 1 / 2 := by norm_num
  have hN := near_of_motion h (by show (0 : ℝ) ≤ 0.05 ∧ (0.05 : ℝ) < 1; norm_num) h2
  have hi : (1:ℝ) / 100 ≤ 1 + Real.cos (sampleSet 1.1 0.05 0).xinclo := by
    have := sample_cos
    have : |Real.cos (Real.arccos (1 / Real.sqrt 3))| ≤ 0.9 := abs_le_of_sq_le_sq (by rw [this]; norm_num) (by norm_num)
    show 1 / 100 ≤ 1 + Real.cos (Real.arccos (1 / Real.sqrt 3))
    have := (abs_le.mp this).1
    norm_num at *; linarith
  have k := C89_attraction s s' (sampleSet 1.1 0.05 0) _ h hN rfl (by show (0 : ℝ) ≤ 0.05 ∧ (0.05 : ℝ) ≤ 0.43; norm_num) hi
  dsimp only at k
  rw [sample_motion, sample_axis (by norm_num)] at k
  obtain ⟨X, W, k1, k2, k3⟩ := k (by show (1.0001 : ℝ) ≤ 1.1 ^ 2 * (1 - 0.05); norm_num)
  refine ⟨s', _, h, fun t => ?_, X, W, k1, k2, k3⟩
  obtain ⟨s'', v, hv, -⟩ := C66_accepted_without_drag s s' (sampleSet 1.1 0.05 0) _ t h rfl he h1 h2
    (by rw [sample_motion, sample_axis (by norm_num)]; show (1.01 : ℝ) ≤ 1.1 ^ 2 * (1 - 0.05); norm_num)
  exact ⟨s'', v, hv⟩

/-- C89: an orbit with drag, which propagates at the epoch -/
example : ∃ s s' r, sgp4init s sampleNear = some (s', r) ∧ (∃ s'' v, sgp4 s' 0 = some (s'', .ok v)) ∧
    ∃ X W : ℝ → Fin 3 → ℝ, ∀ t, |0.0001 * t| ≤ 2 →
      ∀ s'' v, sgp4 s' t = some (s'', .ok v) → Falls X W t (ke / 1.3 ^ 3) (1.3 ^ 2) v.position v.velocity := by
  obtain ⟨s, s', s'', v, h, hN, hv⟩ := sampleNear_propagates
  have hi : (1:ℝ) / 100 ≤ 1 + Real.cos sampleNear.xinclo := by
    have := sample_cos
    have : |Real.cos (Real.arccos (1 / Real.sqrt 3))| ≤ 0.9 := abs_le_of_sq_le_sq (by rw [this]; norm_num) (by norm_num)
    show 1 / 100 ≤ 1 + Real.cos (Real.arccos (1 / Real.sqrt 3))
    have := (abs_le.mp this).1
    norm_num at *; linarith
  have k := C89_attraction_with_drag s s' sampleNear _ h hN (by show (0.001 : ℝ) ≤ 0.1 ∧ (0.1 : ℝ) ≤ 0.43; norm_num) hi
  dsimp only at k
  have e1 : recoveredMotion sampleNear.xno sampleNear.xecco sampleNear.xinclo = ke / 1.3 ^ 3 := sample_motion 1.3 0.1 0.0001
  rw [e1, sample_axis (by norm_num), Spec.lowness_high (by show (1 + 400 / 6378.137 : ℝ) ≤ 1.3 ^ 2 * (1 - 0.1); norm_num), one_pow] at k
  obtain ⟨X, W, k1⟩ := k (by norm_num) (by show (1 + 240 / 6378.137 : ℝ) ≤ 1.3 ^ 2 * (1 - 0.1); norm_num)
    (by show |(0.0001:ℝ)| * 1 ≤ 0.001; rw [abs_of_pos (by norm_num)]; norm_num) (by show |(0.0001:ℝ)| * 1 ≤ 5000 * 0.1 ^ 2; rw [abs_of_pos (by norm_num)]; norm_num)
  exact ⟨s, s', _, h, ⟨s'', v, hv⟩, X, W, fun t ht => (k1 t (by rw [mul_one]; exact ht)).2.2⟩

end Sat
