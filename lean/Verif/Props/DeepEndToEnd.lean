import Verif.Props.DeepCoefficients
import Verif.Props.DeepOutput
import Verif.Props.EndToEnd
/-!
# Propagation of an initialised deep-space record: C61 (periodics), C62

Exact arithmetic.
-/

namespace Sat
open Spec.R3 Spec.SDP Spec

theorem sameAngle_lsTerms {zm M : ℝ} (b : Perturber) (ze : ℝ) (hz : b.ze = ze) (h : SameAngle zm M) :
    lsTerms ze zm = (Real.sin (b.ζ M), b.f2 M, b.f3 M) := by
  have hζ : SameAngle (zm + 2.0 * ze * Real.sin zm) (b.ζ M) := by
    unfold Perturber.ζ
    rw [sameAngle_sin h, hz, show (2.0 : ℝ) = 2 by norm_num]
    exact sameAngle_add h (sameAngle_refl _)
  unfold lsTerms Perturber.f2 Perturber.f3
  simp only [real_sin, real_cos]
  rw [sameAngle_sin hζ, sameAngle_cos hζ]
  norm_num1
  refine Prod.ext rfl (Prod.ext ?_ ?_) <;> dsimp only <;> ring

/-- **C61.** The lunar-solar periodics which the program adds at time `t` (minutes since epoch) to the elements of a deep-space record
are the published ones, the Sun's plus the Moon's, each at the body's mean anomaly at that time. -/
theorem C61_lunar_solar_periodics (s s' : Satrec ℝ) (o : SGP4InitOptions ℝ) (r : Except SGP4Error (SGP4Result ℝ)) (t : ℝ)
    (h : sgp4init s o = some (s', r)) (he : 0 ≤ o.xecco ∧ o.xecco < 1) (hD : s'.method = .D) :
    let T : Target := ⟨recoveredMotion o.xno o.xecco o.xinclo, o.xecco, o.xinclo, o.xargpo, o.xnodeo⟩
    let day := o.epoch + 18261.5
    let m := moon day
    let p := periodics { s' with t := t } .N
    p.pe - s'.peo = T.perE sun (sunAnomaly day t) + T.perE m (moonAnomaly day t) ∧
    p.pinc - s'.pinco = T.perI sun (sunAnomaly day t) + T.perI m (moonAnomaly day t) ∧
    p.pl - s'.plo = T.perL sun (sunAnomaly day t) + T.perL m (moonAnomaly day t) ∧
    p.pgh - s'.pgho = T.perG sun (sunAnomaly day t) + T.perG m (moonAnomaly day t) ∧
    p.ph - s'.pho = T.perH sun (sunAnomaly day t) + T.perH m (moonAnomaly day t) := by
  intro T day m p
  obtain ⟨⟨a1, a2⟩, ⟨b1, b2⟩, ⟨c1, c2, c3⟩, ⟨d1, d2, d3⟩, ⟨e1, e2⟩, ⟨f1, f2⟩, ⟨g1, g2⟩, ⟨h1, h2, h3⟩, ⟨i1, i2, i3⟩, ⟨j1, j2⟩,
    ⟨k1, k2, k3, k4, k5⟩, zs, zl⟩ := C61_lunar_solar_coefficients s s' o r h he hD
  have hs : SameAngle (s'.zmos + (1.19459e-5 : ℝ) * t) (sunAnomaly day t) := by
    have e : sunAnomaly day t = sunAnomaly day 0 + (1.19459e-5 : ℝ) * t := by
      unfold sunAnomaly sun; norm_num
    rw [e]; exact sameAngle_add zs (sameAngle_refl _)
  have hm : SameAngle (s'.zmol + (1.5835218e-4 : ℝ) * t) (moonAnomaly day t) := by
    have e : moonAnomaly day t = moonAnomaly day 0 + (1.5835218e-4 : ℝ) * t := by
      unfold moonAnomaly moon; norm_num
    rw [e]; exact sameAngle_add zl (sameAngle_refl _)
  have qs := sameAngle_lsTerms sun 0.01675 rfl hs
  have qm := sameAngle_lsTerms m 0.05490 (by show (0.0549 : ℝ) = _; norm_num) hm
  have hp : p = periodics { s' with t := t } .N := rfl
  unfold periodics at hp
  have nY : ¬ (DpperInit.N = DpperInit.Y) := by decide
  simp only [if_neg nY] at hp
  rw [qs, qm] at hp
  dsimp only at hp
  rw [k1, k2, k3, k4, k5, hp]
  clear_value p
  clear hp qs qm hs hm zs zl
  dsimp only
  rw [a1, a2, b1, b2, c1, c2, c3, d1, d2, d3, e1, e2, f1, f2, g1, g2, h1, h2, h3, i1, i2, i3, j1, j2]
  unfold Target.perE Target.perI Target.perL Target.perG Target.perH Target.osc
  refine ⟨?_, ?_, ?_, ?_, ?_⟩ <;> ring

/-- the mean elements used by an initialised deep-space record -/
theorem mean_of_init_deep {s s' : Satrec ℝ} {o : SGP4InitOptions ℝ} {r : Except SGP4Error (SGP4Result ℝ)}
    (h : sgp4init s o = some (s', r)) (he : 0 ≤ o.xecco ∧ o.xecco < 1) (hD : s'.method = .D) (t : ℝ) :
    HasMean s' t (carriedMean (orbitOf s' o) o.xnodeo (o.epoch + 18261.5) t) ∧
    Spec.meanEcc s' t = eccentricityRaw (orbitOf s' o) o.xnodeo (o.epoch + 18261.5) t ∧
    (Spec.perturbed s' t).ep = (carriedMean (orbitOf s' o) o.xnodeo (o.epoch + 18261.5) t).e +
      ((targetAt (orbitOf s' o) o.xnodeo).perE sun (sunAnomaly (o.epoch + 18261.5) t) +
        (targetAt (orbitOf s' o) o.xnodeo).perE (moon (o.epoch + 18261.5)) (moonAnomaly (o.epoch + 18261.5) t)) := by
  have hT : targetAt (orbitOf s' o) o.xnodeo = ⟨recoveredMotion o.xno o.xecco o.xinclo, o.xecco, o.xinclo, o.xargpo, o.xnodeo⟩ := by
    unfold targetAt orbitOf; rw [C56_recovered_motion s s' o r h he]
  obtain ⟨pE, pI, -⟩ := C61_lunar_solar_periodics s s' o r t h he hD
  obtain ⟨rE, -⟩ := C61_lunar_solar_rates s s' o r h he hD
  rw [← hT] at pE pI rE
  generalize o.epoch + 18261.5 = day at *
  obtain ⟨pep, pin⟩ := perturbed_ep_incl s' t
  rw [pE] at pep
  rw [pI] at pin
  clear pE pI
  have hl := (sgp4init_left h).1
  have hel := initRecord_elements s o
  have hmo : s'.mo = o.xmo := by
    have h0 : s'.mo = (initRecord s o).mo := (congrArg (fun x : Satrec ℝ => x.mo) hl).trans rfl
    rw [h0, hel]
  have hnd : s'.nodeo = o.xnodeo := by
    have h0 : s'.nodeo = (initRecord s o).nodeo := (congrArg (fun x : Satrec ℝ => x.nodeo) hl).trans rfl
    rw [h0, hel]
  have hw : s'.argpo = o.xargpo := by
    have h0 : s'.argpo = (initRecord s o).argpo := (congrArg (fun x : Satrec ℝ => x.argpo) hl).trans rfl
    rw [h0, hel]
  have hin : s'.inclo = o.xinclo := by
    have h0 : s'.inclo = (initRecord s o).inclo := (congrArg (fun x : Satrec ℝ => x.inclo) hl).trans rfl
    rw [h0, hel]
  have hec : s'.ecco = o.xecco := by
    have h0 : s'.ecco = (initRecord s o).ecco := (congrArg (fun x : Satrec ℝ => x.ecco) hl).trans rfl
    rw [h0, hel]
  have hbs : s'.bstar = o.xbstar := by
    have h0 : s'.bstar = (initRecord s o).bstar := (congrArg (fun x : Satrec ℝ => x.bstar) hl).trans rfl
    rw [h0, hel]
  obtain ⟨r1, r2, r3⟩ := C56_secular_rates s s' o r h he
  obtain ⟨-, c2, c3, -, -, -, c7, c8, -⟩ := C57_drag_coefficients s s' o r h he
  have hsimp : s'.isimp = 1 := ((C57_drag_series s s' o r h he).2 (Or.inl hD)).2.2.2.2.2.2
  have hq1 : (orbitOf s' o).anom = o.xmo := rfl
  have hq2 : (orbitOf s' o).argp = o.xargpo := rfl
  have hq3 : (orbitOf s' o).inc = o.xinclo := rfl
  have hq4 : (orbitOf s' o).e = o.xecco := rfl
  have hq5 : (orbitOf s' o).bstar = o.xbstar := rfl
  have hq6 : (orbitOf s' o).n = s'.no := rfl
  have hqa : ((XKE : ℝ) / s'.no) ^ (X2O3 : ℝ) = (orbitOf s' o).a := by
    rw [show (X2O3 : ℝ) = 2 / 3 by unfold X2O3; norm_num]; rfl
  generalize orbitOf s' o = q at *
  have hMp : Spec.anomaly s' t = q.MDF t := by
    unfold Spec.anomaly Spec.anomalyGravity Orbit.MDF; rw [if_pos hsimp, hmo, r1, hq1]
  have hωp : Spec.perigee s' t = q.ωDF t := by
    unfold Spec.perigee Orbit.ωDF; rw [if_pos hsimp, hw, r2, hq2]
  have hΩp : Spec.node s' t = q.Ω o.xnodeo t := by
    unfold Spec.node Orbit.Ω; rw [hnd, r3, c7]; ring
  have hA : Spec.semiMajor s' t = q.a * (1 - q.C1 * t) ^ 2 := by
    unfold Spec.semiMajor Spec.dragA
    rw [real_powf, hqa, if_pos hsimp, c2]; norm_num1; ring
  have hdL : Spec.dragL s' t = 3 / 2 * q.C1 * t ^ 2 := by
    unfold Spec.dragL; rw [if_pos hsimp, c8]; ring
  have hE : Spec.meanEcc s' t = eccentricityRaw q o.xnodeo day t := by
    unfold Spec.meanEcc Spec.dragE eccentricityRaw
    rw [if_pos hD, if_pos hsimp, hec, hbs, hq4, hq5, rE, c3]
  have hEc : Spec.ecc s' t = max (eccentricityRaw q o.xnodeo day t) (1 / 10 ^ 6) := by
    unfold Spec.ecc
    rw [hE]
    simp only [real_flt, decide_eq_true_eq]
    have l : (1.0e-6 : ℝ) = 1 / 10 ^ 6 := by norm_num
    rw [l]
    split
    · rename_i h; rw [max_eq_right h.le]
    · rename_i h; rw [max_eq_left (not_lt.mp h)]
  have hpR : Spec.SameAngle (Spec.perigeeR s' t) (q.ωDF t) := by
    unfold Spec.perigeeR; simp only [real_rem, real_TWO_PI]; rw [hωp]; exact sameAngle_rem _
  have hnR : Spec.SameAngle (Spec.nodeR s' t) (q.Ω o.xnodeo t) := by
    unfold Spec.nodeR; simp only [real_rem, real_TWO_PI]; rw [hΩp]; exact sameAngle_rem _
  have hincl : Spec.incl s' t = (carriedMean q o.xnodeo day t).i := by
    unfold Spec.incl
    rw [if_pos hD, pin, hin, ← hq3]
    show _ = |_|
    generalize q.inc + _ = x
    simp only [real_flt, decide_eq_true_eq]
    rw [show (0.0 : ℝ) = 0 by norm_num]
    split
    · rename_i h; rw [abs_of_neg h]
    · rename_i h; rw [abs_of_nonneg (not_lt.mp h)]
  obtain ⟨la, lx⟩ := longCoefs_report (carriedMean q o.xnodeo day t).i
  refine ⟨⟨hA, hEc, hpR, hnR, ?_, hincl, ?_, ?_, ?_, ?_, ?_⟩, hE, ?_⟩
  · have e : Spec.SameAngle (Spec.anomalyR s' t)
        ((Spec.anomaly s' t + s'.no * Spec.dragL s' t) + Spec.perigee s' t + Spec.node s' t - q.ωDF t - q.Ω o.xnodeo t) := by
      unfold Spec.anomalyR
      simp only [real_rem, real_TWO_PI]
      exact sameAngle_trans (sameAngle_rem _) (sameAngle_sub (sameAngle_sub (sameAngle_rem _) hpR) hnR)
    refine sameAngle_trans (sameAngle_add (sameAngle_add e hpR) hnR) ?_
    rw [hMp, hdL, hωp, hΩp]
    refine ⟨0, ?_⟩
    show _ = (q.MDF t + q.ωDF t + q.Ω o.xnodeo t + q.n * (3 / 2 * q.C1 * t ^ 2)) + _
    rw [hq6]; push_cast; ring
  · unfold Spec.ayCoef; rw [if_pos hD, hincl, ← la]; rfl
  · unfold Spec.xlCoef; rw [if_pos hD, hincl, ← lx]; rfl
  · unfold Spec.threeCos; rw [if_pos hD, hincl, real_cos]; unfold Mean.θ; norm_num1; ring
  · unfold Spec.oneMinusCos; rw [if_pos hD, hincl, real_cos]; unfold Mean.θ; norm_num1; ring
  · unfold Spec.sevenCos; rw [if_pos hD, hincl, real_cos]; unfold Mean.θ; norm_num1; ring
  · rw [pep, hEc]; rfl

open Classical in
/-- **C62.** The complete outcome of `sgp4` on an initialised deep-space record, in terms of the published equations: mean elements
`carriedMean`, then the long-period terms, Kepler's equation, the short-period terms and the orientation of Report No. 3, all at the
perturbed inclination.  The lunar-solar periodics of the eccentricity are used for one check only. -/
theorem C62_deep_space_outcome (s s' : Satrec ℝ) (o : SGP4InitOptions ℝ) (r : Except SGP4Error (SGP4Result ℝ)) (t : ℝ)
    (h : sgp4init s o = some (s', r)) (he : 0 ≤ o.xecco ∧ o.xecco < 1) (hD : s'.method = .D) :
    let q : Orbit :=
      { n := recoveredMotion o.xno o.xecco o.xinclo, e := o.xecco, inc := o.xinclo, argp := o.xargpo, anom := o.xmo, bstar := o.xbstar }
    let T := targetAt q o.xnodeo
    let day := o.epoch + 18261.5
    let m := carriedMean q o.xnodeo day t
    let ep := m.e + (T.perE sun (sunAnomaly day t) + T.perE (moon day) (moonAnomaly day t))
    ∃ k, k ≤ 9 ∧ (∀ j < k, 1e-12 ≤ |m.correction (m.newton j)|) ∧ (k = 9 ∨ |m.correction (m.newton k)| < 1e-12) ∧
      (sgp4 s' t).map Prod.snd = some (
        if q.n ≤ 0 then .error .Nm
        else if 1 ≤ eccentricityRaw q o.xnodeo day t ∨ eccentricityRaw q o.xnodeo day t < -0.001 then .error .Eccentricty
        else if ep < 0 ∨ 1 < ep then .error .Ep
        else if m.pL < 0 then .error .Pl
        else if m.rk (m.newton k) < 1 then .error .DecayCondition
        else .ok { position := vec (m.positionKm (m.newton k)), velocity := vec (m.velocityKmS (m.newton k)) }) := by
  intro q
  have hq : q = orbitOf s' o := by
    unfold orbitOf; rw [C56_recovered_motion s s' o r h he]
  clear_value q
  subst hq
  obtain ⟨hm, hE, hep⟩ := mean_of_init_deep h he hD t
  obtain ⟨k, k1, k2, k3, kp, kv, kr, kl⟩ := state_of_mean hm
  refine ⟨k, k1, k2, k3, ?_⟩
  have h1 := sgp4_refines s' t (fun _ => ?_)
  · change (sgp4 s' t).map Prod.snd = _ at h1
    rw [h1]
    congr 1
    have hn : (orbitOf s' o).n = s'.no := rfl
    unfold Spec.result
    rw [kp, kv, kr, kl, hE, hep]
    simp only [hD, true_and, real_fle, real_flt, Bool.or_eq_true, decide_eq_true_eq]
    have l0 : (0.0 : ℝ) = 0 := by norm_num
    have l1 : (1.0 : ℝ) = 1 := by norm_num
    rw [l0, l1, hn]
  · obtain ⟨r, hr, -⟩ := C09_dspace_returns (dspaceOptions (atTime s' t) (secular (atTime s' t)))
    exact ⟨r, hr⟩

end Sat
