import Verif.Props.Accept
/-!
# Long-term behaviour of near-earth propagation: C66 and C67 without drag, C71 with drag

Exact arithmetic.
-/

namespace Sat
open Spec.R3

theorem eRaw_noDrag {q : Orbit} (h : q.bstar = 0) (t : ℝ) : q.eRaw t = q.e := by
  unfold Orbit.eRaw; rw [h]; simp

theorem aT_noDrag {q : Orbit} (h : q.bstar = 0) (t : ℝ) : q.aT t = q.a := by
  have hC : q.C1 = 0 := by unfold Orbit.C1; rw [h, zero_mul]
  unfold Orbit.aT Orbit.D2 Orbit.D3 Orbit.D4
  rw [hC]; simp

/-- **C66**, without drag: such an element set is accepted at **every** time, and (**C67**) the satellite stays between perigee and
apogee forever. -/
theorem C66_accepted_without_drag (s s' : Satrec ℝ) (o : SGP4InitOptions ℝ) (r : Except SGP4Error (SGP4Result ℝ)) (t : ℝ)
    (h : sgp4init s o = some (s', r)) (hd : o.xbstar = 0) (he : 1 / 10 ^ 6 ≤ o.xecco ∧ o.xecco ≤ 1 / 2)
    (hn0 : 0 < recoveredMotion o.xno o.xecco o.xinclo) (hn : 2 * Real.pi / recoveredMotion o.xno o.xecco o.xinclo < 225) :
    let a := (ke / recoveredMotion o.xno o.xecco o.xinclo) ^ (2 / 3 : ℝ)
    1.01 ≤ a * (1 - o.xecco) → ∃ s'' v, sgp4 s' t = some (s'', .ok v) ∧
      0.996 * (a * (1 - o.xecco)) * 6378.137 ≤ Real.sqrt (v.position.x ^ 2 + v.position.y ^ 2 + v.position.z ^ 2) ∧
      Real.sqrt (v.position.x ^ 2 + v.position.y ^ 2 + v.position.z ^ 2) ≤ 1.004 * (a * (1 + o.xecco)) * 6378.137 := by
  intro a hp
  have he0 : 0 ≤ o.xecco := le_trans (by norm_num) he.1
  have he1 : 0 ≤ o.xecco ∧ o.xecco < 1 := ⟨he0, lt_of_le_of_lt he.2 (by norm_num)⟩
  set q : Orbit := ⟨recoveredMotion o.xno o.xecco o.xinclo, o.xecco, o.xinclo, o.xargpo, o.xmo, o.xbstar⟩ with hq
  have hE : q.eRaw t = o.xecco := eRaw_noDrag (q := q) hd t
  have hA : q.aT t = a := aT_noDrag (q := q) hd t
  have hme : (q.mean o.xnodeo t).e = o.xecco := by
    show max (q.eRaw t) (1 / 10 ^ 6) = _
    rw [hE]; exact max_eq_left he.1
  have hma : (q.mean o.xnodeo t).a = a := hA
  obtain ⟨s'', v, hv⟩ := C66_accepted s s' o r t h he1 hn0 hn (by rw [hE]; linarith) (by rw [hE]; exact he.2)
    (by rw [hma, hme]; exact hp)
  have hb := C67_between_perigee_and_apogee s s' s'' o r t v h he1 (near_of_motion h he1 hn) hv
    (by rw [hme]; exact he.2) (by rw [hma, hme]; norm_num at hp ⊢; linarith)
  rw [hma, hme] at hb
  exact ⟨s'', v, hv, hb⟩

/-- **C71.** With drag, propagation cannot go on forever: if the drag changes the eccentricity at all (`B* C4 ≠ 0`), then from some
time on, and before some time, every call reports the eccentricity error — never a state vector. -/
theorem C71_drag_ends (s s' : Satrec ℝ) (o : SGP4InitOptions ℝ) (r : Except SGP4Error (SGP4Result ℝ))
    (h : sgp4init s o = some (s', r)) (he : 0 ≤ o.xecco ∧ o.xecco < 1)
    (hn0 : 0 < recoveredMotion o.xno o.xecco o.xinclo) (hn : 2 * Real.pi / recoveredMotion o.xno o.xecco o.xinclo < 225) :
    let q : Orbit :=
      { n := recoveredMotion o.xno o.xecco o.xinclo, e := o.xecco, inc := o.xinclo, argp := o.xargpo, anom := o.xmo, bstar := o.xbstar }
    q.bstar * q.C4 ≠ 0 → ∀ t, (2 + 2 * |q.bstar * q.C5|) / |q.bstar * q.C4| ≤ |t| →
      ∃ s'', sgp4 s' t = some (s'', .error .Eccentricty) := by
  intro q hc t ht
  have hN := near_of_motion h he hn
  obtain ⟨k, -, -, -, hk⟩ := C64_near_earth_outcome s s' o r t h he hN
  have hcp : 0 < |q.bstar * q.C4| := abs_pos.mpr hc
  rw [div_le_iff₀ hcp] at ht
  have hqe : q.e = o.xecco := rfl
  have hbad : 1 ≤ q.eRaw t ∨ q.eRaw t < -0.001 := by
    have hd : |q.eRaw t - (q.e - q.bstar * q.C4 * t)| ≤ 2 * |q.bstar * q.C5| := by
      unfold Orbit.eRaw
      split
      · rw [show q.e - q.bstar * q.C4 * t - q.bstar * q.C5 * (Real.sin (q.Mp t) - Real.sin q.anom) - (q.e - q.bstar * q.C4 * t)
          = -(q.bstar * q.C5 * (Real.sin (q.Mp t) - Real.sin q.anom)) by ring, abs_neg, abs_mul, mul_comm]
        gcongr
        have a1 := Real.abs_sin_le_one (q.Mp t)
        have a2 := Real.abs_sin_le_one q.anom
        exact le_trans (abs_sub _ _) (by linarith)
      · rw [sub_self, abs_zero]; positivity
    rw [abs_le] at hd
    rw [← abs_mul, mul_comm t] at ht
    rcases le_total 0 (q.bstar * q.C4 * t) with hs | hs
    · right
      rw [abs_of_nonneg hs] at ht
      norm_num
      linarith [hd.2, he.2]
    · left
      rw [abs_of_nonpos hs] at ht
      linarith [hd.1, he.1]
  rw [if_neg (not_le.mpr hn0), if_pos hbad] at hk
  cases hs : sgp4 s' t with
  | none => rw [hs] at hk; cases hk
  | some p =>
    rw [hs] at hk
    obtain ⟨s'', v⟩ := p
    simp only [Option.map_some, Option.some.injEq] at hk
    subst hk
    exact ⟨s'', rfl⟩

end Sat
