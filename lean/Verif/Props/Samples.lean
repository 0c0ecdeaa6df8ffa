import Verif.Props.LongTerm
import Verif.Props.InitEpoch
import Verif.Props.DeepAccept
import Verif.Props.DragSeries
import Verif.Props.Resonance
import Mathlib.Analysis.SpecialFunctions.Trigonometric.Inverse
import Mathlib.Analysis.Real.Pi.Bounds
/-!
# Concrete element sets meeting the hypotheses of the theorems about initialisation and propagation

One near-earth set with drag, one without, three deep-space sets (no resonance, one-day, half-day), and sets for each error.
-/

namespace Sat
open Spec.R3 Spec.SDP Spec

/-- Element sets at the inclination 54.7° (chosen so that the recovered mean motion has a closed form), with semi-major axis
`b²` earth radii; the other angles are not zero. -/
noncomputable def sampleSet (b e drag : ℝ) : SGP4InitOptions ℝ :=
  { opsmode := .A, epoch := 18441.78, xbstar := drag, xecco := e, xargpo := 1, xinclo := Real.arccos (1 / Real.sqrt 3),
    xmo := 2, xno := ke / b ^ 3, xnodeo := 3 }

theorem sample_cos : Real.cos (Real.arccos (1 / Real.sqrt 3)) ^ 2 = 1 / 3 := by
  have h3 : Real.sqrt 3 ^ 2 = 3 := Real.sq_sqrt (by norm_num)
  have h30 : 0 < Real.sqrt 3 := Real.sqrt_pos.mpr (by norm_num)
  have h31 : 1 ≤ Real.sqrt 3 := Real.one_le_sqrt.mpr (by norm_num)
  rw [Real.cos_arccos, div_pow, h3]
  · norm_num
  · have : 0 < 1 / Real.sqrt 3 := by positivity
    linarith
  · rw [div_le_one h30]; exact h31

theorem sample_motion (b e d : ℝ) :
    recoveredMotion (sampleSet b e d).xno (sampleSet b e d).xecco (sampleSet b e d).xinclo = ke / b ^ 3 := by
  have h0 : 3 * Real.cos (sampleSet b e d).xinclo ^ 2 - 1 = 0 := by
    rw [show (sampleSet b e d).xinclo = Real.arccos (1 / Real.sqrt 3) from rfl, sample_cos]; norm_num
  unfold recoveredMotion
  rw [h0]
  simp only [zero_div, mul_zero, add_zero, div_one]
  rfl

theorem sample_axis {b : ℝ} (hb : 0 < b) : (ke / (ke / b ^ 3)) ^ (2 / 3 : ℝ) = b ^ 2 := by
  have hk : ke ≠ 0 := by unfold ke; norm_num
  rw [div_div_cancel₀ hk, ← Real.rpow_natCast b 3, ← Real.rpow_mul hb.le, ← Real.rpow_natCast b 2]
  norm_num

/-! ## Near-earth -/

theorem sample_near {b : ℝ} (hb : 0 < b ∧ b ≤ 1.3) (e d : ℝ) :
    0 < recoveredMotion (sampleSet b e d).xno (sampleSet b e d).xecco (sampleSet b e d).xinclo ∧
    2 * Real.pi / recoveredMotion (sampleSet b e d).xno (sampleSet b e d).xecco (sampleSet b e d).xinclo < 225 := by
  have hb0 := hb.1
  have hk : 0 < ke := by unfold ke; norm_num
  rw [sample_motion]
  refine ⟨by positivity, ?_⟩
  rw [div_div_eq_mul_div, div_lt_iff₀ hk]
  have h3 : b ^ 3 ≤ 1.3 ^ 3 := by gcongr; exact hb.2
  have := Real.pi_lt_d2
  have hp := Real.pi_pos
  unfold ke
  norm_num at h3 ⊢
  nlinarith

/-- 186 min period, eccentricity 0.1, with drag -/
noncomputable def sampleNear : SGP4InitOptions ℝ := sampleSet 1.3 0.1 0.0001

/-- it is accepted as a near-earth satellite, whatever was in the record before -/
theorem sampleNear_accepted (s : Satrec ℝ) : ∃ s' v, sgp4init s sampleNear = some (s', .ok v) ∧ s'.method = .N := by
  obtain ⟨h1, h2⟩ := sample_near (b := 1.3) ⟨by norm_num, le_refl _⟩ 0.1 0.0001
  refine C66_accepted_at_epoch s sampleNear ?_ h1 h2 ?_
  · show (0 : ℝ) ≤ 0.1 ∧ (0.1 : ℝ) ≤ 1 / 2
    norm_num
  · unfold sampleNear
    rw [sample_motion, sample_axis (by norm_num)]
    show (1.0101 : ℝ) ≤ 1.3 ^ 2 * (1 - 0.1)
    norm_num

/-- C01, C02, C03, C04, C11, C12, C13, C14, C16, C55, C56, C57, C64, C65, C67: a record which initialisation leaves, near-earth,
and which propagates successfully. -/
theorem sampleNear_propagates : ∃ s s' s'' v, sgp4init s sampleNear = some (s', .ok v) ∧ s'.method = .N ∧ sgp4 s' 0 = some (s'', .ok v) := by
  obtain ⟨s', v, h, hN⟩ := sampleNear_accepted Satrec.zero
  have h2 := C70_init_is_epoch _ s' s' _ _ [] h rfl
  obtain ⟨s'', r, hr⟩ := C09_sgp4_returns s' 0
  rw [show (0.0 : ℝ) = 0 by norm_num, hr] at h2
  simp only [Option.map_some, Option.some.injEq] at h2
  subst h2
  exact ⟨_, s', s'', v, h, hN, hr⟩

/-- C01 with calls at `-5` and `1e9` minutes before -/
example : ∃ s' s'' : Satrec ℝ, afterCalls s' [-5, 1e9] = some s'' ∧ (∃ v, (sgp4 s'' 0).map Prod.snd = some (.ok v)) := by
  obtain ⟨_, s', _, v, h, -, -⟩ := sampleNear_propagates
  obtain ⟨s1, r1, h1⟩ := C09_sgp4_returns s' (-5)
  obtain ⟨s2, r2, h2⟩ := C09_sgp4_returns s1 1e9
  have hc : afterCalls s' [-5, 1e9] = some s2 := by simp only [afterCalls, h1, h2]
  have := C70_init_is_epoch _ s' s2 _ _ [-5, 1e9] h hc
  rw [show (0.0 : ℝ) = 0 by norm_num] at this
  exact ⟨s', s2, hc, v, this⟩

/-- C58: the perigee of the sample (3300 km) is in the range of the full drag model -/
example (s s' : Satrec ℝ) (r) (h : sgp4init s sampleNear = some (s', r)) : 220 ≤ (orbitOf s' sampleNear).perigeeKm ∧ 0 < s'.no := by
  have hn := C56_recovered_motion s s' sampleNear r h (by show (0 : ℝ) ≤ 0.1 ∧ (0.1 : ℝ) < 1; norm_num)
  unfold sampleNear at hn
  rw [sample_motion] at hn
  constructor
  · have ha : (orbitOf s' sampleNear).a = 1.3 ^ 2 := by
      show (ke / s'.no) ^ (2 / 3 : ℝ) = _
      rw [hn, sample_axis (by norm_num)]
    unfold Orbit.perigeeKm
    rw [ha]
    show 220 ≤ ((1.3 : ℝ) ^ 2 * (1 - 0.1) - 1) * 6378.137
    norm_num
  · rw [hn]; unfold ke; norm_num

/-- C66, C67 without drag: a 100 min orbit, at every time -/
example (s : Satrec ℝ) (t : ℝ) : ∃ s' r s'' v, sgp4init s (sampleSet 1.1 0.05 0) = some (s', r) ∧ sgp4 s' t = some (s'', .ok v) := by
  obtain ⟨h1, h2⟩ := sample_near (b := 1.1) ⟨by norm_num, by norm_num⟩ 0.05 0
  obtain ⟨s', h⟩ := sgp4init_outcome s (sampleSet 1.1 0.05 0)
  obtain ⟨s'', v, hv, -⟩ := C66_accepted_without_drag s s' (sampleSet 1.1 0.05 0) _ t h rfl
    (by show (1 : ℝ) / 10 ^ 6 ≤ 0.05 ∧ (0.05 : ℝ) ≤ 1 / 2; norm_num) h1 h2
    (by rw [sample_motion, sample_axis (by norm_num)]; show (1.01 : ℝ) ≤ 1.1 ^ 2 * (1 - 0.05); norm_num)
  exact ⟨s', _, s'', v, h, hv⟩

/-- C71: the drag of the sample is not trivial, so that it cannot be propagated forever -/
theorem sampleNear_drag : (⟨ke / 1.3 ^ 3, 0.1, Real.arccos (1 / Real.sqrt 3), 1, 2, 0.0001⟩ : Orbit).bstar *
    (⟨ke / 1.3 ^ 3, 0.1, Real.arccos (1 / Real.sqrt 3), 1, 2, 0.0001⟩ : Orbit).C4 ≠ 0 := by
  set q : Orbit := ⟨ke / 1.3 ^ 3, 0.1, Real.arccos (1 / Real.sqrt 3), 1, 2, 0.0001⟩ with hq
  have hk : 0 < ke := by unfold ke; norm_num
  have he : q.e = 1 / 10 := by rw [hq]; norm_num
  have ha : q.a = 169 / 100 := by
    show (ke / (ke / 1.3 ^ 3)) ^ (2 / 3 : ℝ) = _
    rw [sample_axis (by norm_num)]; norm_num
  have hθ : q.θ ^ 2 = 1 / 3 := sample_cos
  have hp : q.perigeeKm = 0.521 * 6378.137 := by unfold Orbit.perigeeKm kmPerRadius; rw [ha, he]; norm_num
  have hs : q.s = 1 + 78 / 6378.137 := by
    unfold Orbit.s Orbit.sKm kmPerRadius
    rw [if_neg (by rw [hp]; norm_num), if_neg (by rw [hp]; norm_num)]
  have hξ1 : 1.4 ≤ q.ξ := by unfold Orbit.ξ; rw [ha, hs]; norm_num
  have hξ2 : q.ξ ≤ 1.5 := by unfold Orbit.ξ; rw [ha, hs]; norm_num
  have hη1 : 0.2 ≤ q.η := by unfold Orbit.η; rw [ha, he]; norm_num at *; linarith
  have hη2 : q.η ≤ 0.26 := by unfold Orbit.η; rw [ha, he]; norm_num at *; linarith
  have hψ : 0.9 ≤ q.ψ := by
    unfold Orbit.ψ
    refine le_trans ?_ (le_abs_self _)
    norm_num at *; nlinarith
  have hq4 : 0 < q.q4 := by unfold Orbit.q4; rw [hs]; unfold kmPerRadius; norm_num
  have hb : 0 < q.β := by unfold Orbit.β; rw [he]; apply Real.sqrt_pos.mpr; norm_num
  have hbs : q.bstar = 0.0001 := rfl
  have hn : 0 < q.n := by show 0 < ke / 1.3 ^ 3; positivity
  apply mul_ne_zero (by rw [hbs]; norm_num)
  unfold Orbit.C4
  rw [hθ, he, ha]
  have hψ0 : 0 < q.ψ := lt_of_lt_of_le (by norm_num) hψ
  have hξ0 : 0 < q.ξ := lt_of_lt_of_le (by norm_num) hξ1
  have hη0 : 0 < q.η := lt_of_lt_of_le (by norm_num) hη1
  apply mul_ne_zero
  · have : 0 < q.ψ ^ (7 / 2 : ℝ) := Real.rpow_pos_of_pos hψ0 _
    positivity
  · apply ne_of_gt
    have c1 := Real.cos_le_one (2 * q.argp)
    have c2 := Real.neg_one_le_cos (2 * q.argp)
    set c := Real.cos (2 * q.argp)
    have hk2 : k2 = 0.00108262998905 / 2 := rfl
    have hK : 0 ≤ 2 * k2 * q.ξ / (169 / 100 * q.ψ) ∧ 2 * k2 * q.ξ / (169 / 100 * q.ψ) ≤ 0.01 := by
      rw [hk2]
      constructor
      · positivity
      · rw [div_le_iff₀ (by positivity)]
        norm_num at *; nlinarith
    generalize 2 * k2 * q.ξ / (169 / 100 * q.ψ) = K at hK
    have hX : 2 * q.η ^ 2 - 1 / 10 * q.η - 1 / 10 * q.η ^ 3 ≤ 1 := by norm_num at *; nlinarith [sq_nonneg q.η, pow_pos hη0 3]
    have hX0 : 0 ≤ 2 * q.η ^ 2 - 1 / 10 * q.η - 1 / 10 * q.η ^ 3 := by norm_num at *; nlinarith [sq_nonneg q.η, pow_pos hη0 3, pow_pos hη0 2]
    have hY : (2 * q.η ^ 2 - 1 / 10 * q.η - 1 / 10 * q.η ^ 3) * c ≤ 1 := by nlinarith
    generalize (2 * q.η ^ 2 - 1 / 10 * q.η - 1 / 10 * q.η ^ 3) = X at *
    have hM : 0.4 ≤ 2 * q.η * (1 + 1 / 10 * q.η) + 1 / 2 * (1 / 10) + 1 / 2 * q.η ^ 3 := by
      norm_num at *; nlinarith [pow_pos hη0 3, pow_pos hη0 2]
    have : K * (3 * (1 - 3 * (1 / 3)) * (1 + 3 / 2 * q.η ^ 2 - 2 * (1 / 10) * q.η - 1 / 2 * (1 / 10) * q.η ^ 3) + 3 / 4 * (1 - 1 / 3) * X * c)
        ≤ 0.01 := by
      have e : 3 * (1 - 3 * (1 / 3)) * (1 + 3 / 2 * q.η ^ 2 - 2 * (1 / 10) * q.η - 1 / 2 * (1 / 10) * q.η ^ 3) + 3 / 4 * (1 - 1 / 3) * X * c
          = 1 / 2 * (X * c) := by ring
      rw [e]
      norm_num at *; nlinarith [hK.1, hK.2]
    norm_num at this hM ⊢
    linarith

example (s : Satrec ℝ) : ∃ s' r T, sgp4init s sampleNear = some (s', r) ∧ ∀ t, T ≤ |t| → ∃ s'', sgp4 s' t = some (s'', .error .Eccentricty) := by
  obtain ⟨h1, h2⟩ := sample_near (b := 1.3) ⟨by norm_num, le_refl _⟩ 0.1 0.0001
  obtain ⟨s', h⟩ := sgp4init_outcome s sampleNear
  have := C71_drag_ends s s' sampleNear _ h (by show (0 : ℝ) ≤ 0.1 ∧ (0.1 : ℝ) < 1; norm_num) h1 h2
  unfold sampleNear at this
  rw [sample_motion] at this
  exact ⟨s', _, _, h, this sampleNear_drag⟩

/-! ## Deep space -/

theorem sample_deep {b : ℝ} (hb : 1.5 ≤ b ∧ b ≤ 2.7) (e d : ℝ) :
    0.0035 ≤ recoveredMotion (sampleSet b e d).xno (sampleSet b e d).xecco (sampleSet b e d).xinclo ∧
    225 ≤ 2 * Real.pi / recoveredMotion (sampleSet b e d).xno (sampleSet b e d).xecco (sampleSet b e d).xinclo := by
  have hb0 : 0 < b := lt_of_lt_of_le (by norm_num) hb.1
  have hk : 0 < ke := by unfold ke; norm_num
  rw [sample_motion]
  have h3 : b ^ 3 ≤ 2.7 ^ 3 := by gcongr; exact hb.2
  have h4 : 1.5 ^ 3 ≤ b ^ 3 := by gcongr; exact hb.1
  have hp := Real.pi_gt_d2
  constructor
  · rw [le_div_iff₀ (by positivity)]; unfold ke; norm_num at h3 ⊢; linarith
  · rw [div_div_eq_mul_div, le_div_iff₀ hk]
    unfold ke
    norm_num at h4 hp ⊢
    nlinarith

theorem sampleDeep_accepted (s : Satrec ℝ) {b e : ℝ} (d : ℝ) (hb : 1.5 ≤ b ∧ b ≤ 2.7) (he : 0 ≤ e ∧ e ≤ 1 / 2) :
    ∃ s' v, sgp4init s (sampleSet b e d) = some (s', .ok v) ∧ s'.method = .D := by
  obtain ⟨h1, h2⟩ := sample_deep hb e d
  have hb0 : 0 < b := lt_of_lt_of_le (by norm_num) hb.1
  refine C69_accepted_at_epoch s _ he (le_trans (by norm_num) h1) h2 ?_
  rw [sample_motion, sample_axis hb0]
  show (1.0101 : ℝ) ≤ b ^ 2 * (1 - e)
  have : (1.5 : ℝ) ^ 2 ≤ b ^ 2 := by gcongr; exact hb.1
  norm_num at this ⊢
  nlinarith [he.1, he.2]

/-- C05, C07, C10, C61, C62, C69: without resonance (285 min) -/
example (s : Satrec ℝ) : ∃ s' v, sgp4init s (sampleSet 1.5 0.2 0.0001) = some (s', .ok v) ∧ s'.method = .D :=
  sampleDeep_accepted s 0.0001 ⟨le_refl _, by norm_num⟩ (by norm_num)

/-- C69: accepted for 69 days -/
example (s : Satrec ℝ) (t : ℝ) (ht : |t| ≤ 100000) :
    ∃ s' r s'' v, sgp4init s (sampleSet 2.6 0.001 0) = some (s', r) ∧ sgp4 s' t = some (s'', .ok v) := by
  obtain ⟨h1, h2⟩ := sample_deep (b := 2.6) ⟨by norm_num, by norm_num⟩ 0.001 0
  obtain ⟨s', h⟩ := sgp4init_outcome s (sampleSet 2.6 0.001 0)
  obtain ⟨s'', v, hv⟩ := C69_accepted_without_drag s s' (sampleSet 2.6 0.001 0) _ t h rfl
    (by show (0 : ℝ) ≤ 0.001 ∧ (0.001 : ℝ) ≤ 0.45; norm_num) h1 h2
    (by rw [sample_motion, sample_axis (by norm_num)]; show (1.0101 : ℝ) ≤ 2.6 ^ 2 * (1 - 1.1 * 0.001); norm_num) ht
  exact ⟨s', _, s'', v, h, hv⟩

/-- C51, C63: in the one-day window (24.7 h), in the half-day window (12.1 h, eccentricity 0.5), and in neither -/
example : DayWindow (ke / 2.6 ^ 3) ∧ HalfDayWindow (ke / 2.05 ^ 3) 0.5 ∧ ¬ DayWindow (ke / 1.5 ^ 3) ∧ ¬ HalfDayWindow (ke / 1.5 ^ 3) 0.2 := by
  unfold DayWindow HalfDayWindow ke; norm_num

end Sat
