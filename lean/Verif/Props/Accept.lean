import Verif.Props.Epoch
import Verif.Props.Kepler
/-!
# Orbits above the atmosphere are accepted, and stay between perigee and apogee: C66, C67

Exact arithmetic.
-/

namespace Sat
open Spec.R3

/-- `sinu` and `cosu` are a sine and a cosine, whatever the eccentric longitude. -/
theorem sinu_sq_add_cosu_sq (m : Mean) (E : ℝ) (hr : m.r E ≠ 0) (he : m.eL2 ≤ 1) : m.sinu E ^ 2 + m.cosu E ^ 2 = 1 := by
  have hb : Real.sqrt (1 - m.eL2) ^ 2 = 1 - m.eL2 := Real.sq_sqrt (by linarith)
  have hb0 : 0 ≤ Real.sqrt (1 - m.eL2) := Real.sqrt_nonneg _
  have hd : m.a / m.r E * (1 - m.ecosE E) = 1 := by
    have : m.a / m.r E * (1 - m.ecosE E) = m.r E / m.r E := by unfold Mean.r; ring
    rw [this, div_self hr]
  have hes : m.eL2 = m.ecosE E ^ 2 + m.esinE E ^ 2 := by
    unfold Mean.eL2 Mean.ecosE Mean.esinE
    linear_combination (-(m.axN ^ 2 + m.ayN ^ 2)) * Real.sin_sq_add_cos_sq E
  have hel : m.eL2 = m.axN ^ 2 + m.ayN ^ 2 := rfl
  unfold Mean.sinu Mean.cosu
  have hc : m.ecosE E = m.axN * Real.cos E + m.ayN * Real.sin E := rfl
  have hs : m.esinE E = m.axN * Real.sin E - m.ayN * Real.cos E := rfl
  generalize Real.sqrt (1 - m.eL2) = b at *
  have h1b : 1 + b ≠ 0 := by positivity
  set k := m.a / m.r E
  have hw : 1 / (1 + b) * (1 + b) = 1 := by field_simp
  have e1 : m.ayN * m.esinE E / (1 + b) = m.ayN * m.esinE E * (1 / (1 + b)) := by ring
  have e2 : m.axN * m.esinE E / (1 + b) = m.axN * m.esinE E * (1 / (1 + b)) := by ring
  rw [e1, e2]
  generalize 1 / (1 + b) = w at *
  have key : (Real.sin E - m.ayN - m.axN * m.esinE E * w) ^ 2 + (Real.cos E - m.axN + m.ayN * m.esinE E * w) ^ 2
      = (1 - m.ecosE E) ^ 2 := by
    have x1 : (Real.sin E - m.ayN - m.axN * m.esinE E * w) ^ 2 + (Real.cos E - m.axN + m.ayN * m.esinE E * w) ^ 2
        = (Real.sin E ^ 2 + Real.cos E ^ 2) - 2 * m.ecosE E + m.eL2 - 2 * m.esinE E ^ 2 * w + m.esinE E ^ 2 * w ^ 2 * m.eL2 := by
      rw [hel]
      have : m.esinE E ^ 2 = m.esinE E * (m.axN * Real.sin E - m.ayN * Real.cos E) := by rw [sq, ← hs]
      rw [hc]
      linear_combination (2 * w) * this
    have x2 : w * m.eL2 = 1 - b := by
      have : m.eL2 = (1 - b) * (1 + b) := by linear_combination hb
      rw [this]; linear_combination (1 - b) * hw
    rw [x1, Real.sin_sq_add_cos_sq]
    linear_combination (m.esinE E ^ 2 * w) * x2 - m.esinE E ^ 2 * hw + hes
  have : k ^ 2 * (1 - m.ecosE E) ^ 2 = 1 := by rw [← mul_pow, hd, one_pow]
  rw [← key] at this
  linear_combination this

theorem longAy_small (i : ℝ) : |longAy i| ≤ 0.00117 := by
  have h : longAy i = (a30 / (4 * k2)) * Real.sin i := by unfold longAy; ring
  rw [h, abs_mul]
  have h1 : |a30 / (4 * k2)| ≤ 0.00117 := by
    unfold a30 k2 j2 j3; rw [abs_of_pos (by norm_num)]; norm_num
  calc _ ≤ 0.00117 * 1 := mul_le_mul h1 (Real.abs_sin_le_one i) (abs_nonneg _) (by norm_num)
    _ = _ := by ring

/-- The distance of the perturbed orbit, from the size of the mean orbit. -/
theorem distance_bounds (m : Mean) (E : ℝ) (he : 0 ≤ m.e ∧ m.e ≤ 1 / 2) (hp : 1 ≤ m.a * (1 - m.e)) :
    0 ≤ m.pL ∧ 0.996 * (m.a * (1 - m.e)) ≤ m.rk E ∧ m.rk E ≤ 1.004 * (m.a * (1 + m.e)) := by
  obtain ⟨he0, he1⟩ := he
  have ha1 : 1 ≤ m.a := by
    by_contra h
    push Not at h
    nlinarith
  have ha0 : 0 < m.a := by linarith
  have hE2 : 3 / 4 ≤ 1 - m.e ^ 2 := by nlinarith
  set c := longAy m.i / (m.a * (1 - m.e ^ 2)) with hc
  have hac : m.a * |c| ≤ 0.00156 := by
    have h1 : m.a * |c| = |longAy m.i| / (1 - m.e ^ 2) := by
      rw [hc, abs_div, abs_of_pos (by positivity : 0 < m.a * (1 - m.e ^ 2))]
      field_simp
    rw [h1, div_le_iff₀ (by linarith)]
    have := longAy_small m.i
    calc _ ≤ 0.00117 := this
      _ ≤ 0.00156 * (3 / 4) := by norm_num
      _ ≤ _ := by gcongr
  have hc0 := abs_nonneg c
  have hc1 : |c| ≤ 0.00156 := by nlinarith
  have hf : m.eL2 ≤ (m.e + |c|) ^ 2 := by
    have h1 : m.eL2 = m.e ^ 2 + 2 * m.e * (Real.sin m.ω * c) + c ^ 2 := by
      unfold Mean.eL2 Mean.axN Mean.ayN
      rw [← hc]
      linear_combination m.e ^ 2 * Real.sin_sq_add_cos_sq m.ω
    have h2 : Real.sin m.ω * c ≤ |c| := by
      calc _ ≤ |Real.sin m.ω * c| := le_abs_self _
        _ = |Real.sin m.ω| * |c| := abs_mul _ _
        _ ≤ 1 * |c| := by gcongr; exact Real.abs_sin_le_one _
        _ = _ := one_mul _
    rw [h1, add_sq, sq_abs]
    have : 2 * m.e * (Real.sin m.ω * c) ≤ 2 * m.e * |c| := by gcongr
    linarith
  have hf0 : 0 ≤ m.e + |c| := by positivity
  obtain ⟨d1, d2⟩ := newton_denominator hf hf0 E
  have hr : m.r E = m.a * (1 - m.axN * Real.cos E - m.ayN * Real.sin E) := by unfold Mean.r Mean.ecosE; ring
  have hr1 : m.a * (1 - m.e) - 0.00156 ≤ m.r E := by
    rw [hr]
    calc _ ≤ m.a * (1 - (m.e + |c|)) := by linarith
      _ ≤ _ := by gcongr
  have hr2 : m.r E ≤ m.a * (1 + m.e) + 0.00156 := by
    rw [hr]
    calc _ ≤ m.a * (1 + (m.e + |c|)) := by gcongr
      _ ≤ _ := by linarith
  have hf1 : m.e + |c| ≤ 1 := by linarith
  have hel1 : m.eL2 ≤ 1 := hf.trans (by nlinarith)
  have hel0 : 0 ≤ m.eL2 := by unfold Mean.eL2; positivity
  have hpL : 0.998 ≤ m.pL := by
    unfold Mean.pL
    have : m.e + |c| - m.eL2 ≥ 0 := by nlinarith
    calc (0.998 : ℝ) ≤ m.a * (1 - m.e) - 0.00156 := by linarith
      _ ≤ m.a * (1 - (m.e + |c|)) := by linarith
      _ ≤ _ := by gcongr; linarith
  have hr0 : 0 < m.r E := by linarith
  have hsc := sinu_sq_add_cosu_sq m E hr0.ne' hel1
  have hcos : |m.cos2u E| ≤ 1 := by
    unfold Mean.cos2u
    rw [abs_le]
    constructor <;> nlinarith [sq_nonneg (m.sinu E), sq_nonneg (m.cosu E)]
  have hθ0 : 0 ≤ m.θ ^ 2 := sq_nonneg _
  have hθ1 : m.θ ^ 2 ≤ 1 := by unfold Mean.θ; exact Real.cos_sq_le_one _
  have hk : (0:ℝ) < k2 ∧ k2 ≤ 0.000542 := by unfold k2 j2; norm_num
  have hb0 : 0 ≤ Real.sqrt (1 - m.eL2) := Real.sqrt_nonneg _
  have hb1 : Real.sqrt (1 - m.eL2) ≤ 1 := by
    exact Real.sqrt_le_one.mpr (by linarith)
  have hq : 0 ≤ 3 / 2 * k2 * Real.sqrt (1 - m.eL2) / m.pL ^ 2 ∧ 3 / 2 * k2 * Real.sqrt (1 - m.eL2) / m.pL ^ 2 ≤ 0.00082 := by
    have hk0 := hk.1.le
    refine ⟨by positivity, ?_⟩
    rw [div_le_iff₀ (by positivity)]
    have h2 : (0.996004 : ℝ) ≤ m.pL ^ 2 := by nlinarith
    calc 3 / 2 * k2 * Real.sqrt (1 - m.eL2) ≤ 3 / 2 * 0.000542 * 1 := by gcongr; exact hk.2
      _ ≤ 0.00082 * 0.996004 := by norm_num
      _ ≤ _ := by gcongr
  have hs : |k2 / (2 * m.pL) * (1 - m.θ ^ 2) * m.cos2u E| ≤ 0.000272 := by
    have hk0 := hk.1.le
    have h1 : 0 ≤ k2 / (2 * m.pL) := by positivity
    have h2 : k2 / (2 * m.pL) ≤ 0.000272 := by
      rw [div_le_iff₀ (by positivity)]
      linarith [hk.2]
    rw [abs_mul, abs_mul, abs_of_nonneg h1, abs_of_nonneg (by linarith : 0 ≤ 1 - m.θ ^ 2)]
    have h3 : 1 - m.θ ^ 2 ≤ 1 := by linarith
    have h4 : k2 / (2 * m.pL) * (1 - m.θ ^ 2) ≤ 0.000272 * 1 := mul_le_mul h2 h3 (by linarith) (by norm_num)
    have h5 := mul_le_mul h4 hcos (abs_nonneg _) (by norm_num)
    linarith
  obtain ⟨s1, s2⟩ := abs_le.mp hs
  set q := 3 / 2 * k2 * Real.sqrt (1 - m.eL2) / m.pL ^ 2
  have ht : |q * (3 * m.θ ^ 2 - 1)| ≤ 0.00164 := by
    have h1 : |3 * m.θ ^ 2 - 1| ≤ 2 := by rw [abs_le]; constructor <;> linarith
    rw [abs_mul, abs_of_nonneg hq.1]
    have h2 := mul_le_mul hq.2 h1 (abs_nonneg _) (by norm_num)
    linarith
  obtain ⟨t1, t2⟩ := abs_le.mp ht
  have hrk : m.rk E = m.r E * (1 - q * (3 * m.θ ^ 2 - 1)) + k2 / (2 * m.pL) * (1 - m.θ ^ 2) * m.cos2u E := rfl
  have hp2 : 1 ≤ m.a * (1 + m.e) := by nlinarith
  refine ⟨by linarith, ?_, ?_⟩
  · rw [hrk]
    have : m.r E * (1 - 0.00164) ≤ m.r E * (1 - q * (3 * m.θ ^ 2 - 1)) := by gcongr
    linarith
  · rw [hrk]
    have : m.r E * (1 - q * (3 * m.θ ^ 2 - 1)) ≤ m.r E * (1 + 0.00164) := by gcongr; linarith
    linarith

/-- the method chosen by initialisation, in terms of the recovered mean motion -/
theorem near_of_motion {s s' : Satrec ℝ} {o : SGP4InitOptions ℝ} {r : Except SGP4Error (SGP4Result ℝ)}
    (h : sgp4init s o = some (s', r)) (he : 0 ≤ o.xecco ∧ o.xecco < 1)
    (hn : 2 * Real.pi / recoveredMotion o.xno o.xecco o.xinclo < 225) : s'.method = .N := by
  have hc := (C07_classification s s' o r h (Or.inl (guard_real he))).1
  rw [C56_recovered_motion s s' o r h he] at hc
  simp only [real_fle, real_TWO_PI, decide_eq_true_eq] at hc
  cases hm : s'.method with
  | N => rfl
  | D =>
    have := hc.mp hm
    norm_num at this hn
    linarith

/-- **C66.** A near-earth satellite (recovered period below 225 min) whose mean orbit at time `t` has an eccentricity of at most
one half and a perigee of at least 1.01 earth radii (64 km altitude) is never rejected: propagation succeeds, whatever the
inclination, the angles and the drag term. -/
theorem C66_accepted (s s' : Satrec ℝ) (o : SGP4InitOptions ℝ) (r : Except SGP4Error (SGP4Result ℝ)) (t : ℝ)
    (h : sgp4init s o = some (s', r)) (he : 0 ≤ o.xecco ∧ o.xecco < 1)
    (hn0 : 0 < recoveredMotion o.xno o.xecco o.xinclo) (hn : 2 * Real.pi / recoveredMotion o.xno o.xecco o.xinclo < 225) :
    let q : Orbit :=
      { n := recoveredMotion o.xno o.xecco o.xinclo, e := o.xecco, inc := o.xinclo, argp := o.xargpo, anom := o.xmo, bstar := o.xbstar }
    let m := q.mean o.xnodeo t
    (-0.001 : ℝ) ≤ q.eRaw t → q.eRaw t ≤ 1 / 2 → 1.01 ≤ m.a * (1 - m.e) → ∃ s'' v, sgp4 s' t = some (s'', .ok v) := by
  intro q m h1 h2 h3
  have hN := near_of_motion h he hn
  obtain ⟨k, -, -, -, hk⟩ := C64_near_earth_outcome s s' o r t h he hN
  have hm : 0 ≤ m.e ∧ m.e ≤ 1 / 2 := ⟨le_max_of_le_right (by norm_num), max_le h2 (by norm_num)⟩
  obtain ⟨b1, b2, -⟩ := distance_bounds m (m.newton k) hm (by linarith)
  rw [if_neg (not_le.mpr hn0), if_neg (by
    push Not; exact ⟨lt_of_le_of_lt h2 (by norm_num), h1⟩), if_neg (not_lt.mpr b1), if_neg (not_lt.mpr (by linarith))] at hk
  cases hs : sgp4 s' t with
  | none => rw [hs] at hk; cases hk
  | some p =>
    obtain ⟨s'', r'⟩ := p
    rw [hs] at hk
    simp only [Option.map_some, Option.some.injEq] at hk
    subst hk
    exact ⟨s'', _, rfl⟩

/-- the outcome does not depend on the scratch fields -/
theorem result_scratch {F : Type} [Arith F] (x : Satrec F) (t t0 : F) (er : Nat) (i : DpperInit) :
    Spec.result { x with t := t0, error := er, init := i } t = Spec.result x t := by
  apply result_congr <;> first | rfl | (intro _; rfl)

/-- **C66**, at the epoch: such an element set is accepted by initialisation. -/
theorem C66_accepted_at_epoch (s : Satrec ℝ) (o : SGP4InitOptions ℝ) (he : 0 ≤ o.xecco ∧ o.xecco ≤ 1 / 2)
    (hn0 : 0 < recoveredMotion o.xno o.xecco o.xinclo) (hn : 2 * Real.pi / recoveredMotion o.xno o.xecco o.xinclo < 225)
    (hp : 1.0101 ≤ (ke / recoveredMotion o.xno o.xecco o.xinclo) ^ (2 / 3 : ℝ) * (1 - o.xecco)) :
    ∃ s' v, sgp4init s o = some (s', .ok v) ∧ s'.method = .N := by
  have he1 : 0 ≤ o.xecco ∧ o.xecco < 1 := ⟨he.1, lt_of_le_of_lt he.2 (by norm_num)⟩
  obtain ⟨s', h⟩ := sgp4init_outcome s o
  have hN := near_of_motion h he1 hn
  -- initialisation reports what propagation to time zero reports
  have hz : (sgp4 s' 0).map Prod.snd = some (Spec.result (initRecord s o) 0) := by
    obtain ⟨s1, r1, h1⟩ := C09_sgp4_returns s' 0
    rw [h1]
    show some r1 = _
    rw [C16_outcome _ _ _ _ h1]
    have hl := (sgp4init_left h).2 (by
      have := congrArg (fun x : Satrec ℝ => x.method) (sgp4init_left h).1
      exact this.symm.trans hN)
    rw [hl, result_scratch]
  set q : Orbit := ⟨recoveredMotion o.xno o.xecco o.xinclo, o.xecco, o.xinclo, o.xargpo, o.xmo, o.xbstar⟩ with hq
  have hMDF : q.MDF 0 = o.xmo := by unfold Orbit.MDF; rw [mul_zero, add_zero]
  have hδ : q.δωM 0 = 0 := by unfold Orbit.δωM; rw [hMDF]; simp [hq]
  have hMp : q.Mp 0 = o.xmo := by unfold Orbit.Mp; rw [hMDF, hδ, add_zero]
  have hE : q.eRaw 0 = o.xecco := by unfold Orbit.eRaw; rw [hMp]; simp [hq]
  have hA : q.aT 0 = q.a := by unfold Orbit.aT; simp
  have hqa : q.a = (ke / recoveredMotion o.xno o.xecco o.xinclo) ^ (2 / 3 : ℝ) := rfl
  rw [← hqa] at hp
  have ha0 : 0 ≤ q.a := by
    rw [hqa]; apply Real.rpow_nonneg; unfold ke; positivity
  obtain ⟨s'', v, hv⟩ := C66_accepted s s' o _ 0 h he1 hn0 hn (by rw [hE]; linarith [he.1]) (by rw [hE]; exact he.2) (by
    show 1.01 ≤ q.aT 0 * (1 - max (q.eRaw 0) (1 / 10 ^ 6))
    rw [hA, hE]
    rcases le_total o.xecco (1 / 10 ^ 6) with hx | hx
    · rw [max_eq_right hx]
      have : q.a * (1 - o.xecco) ≤ q.a * 1 := by gcongr; linarith [he.1]
      norm_num at hp ⊢
      linarith
    · rw [max_eq_left hx]; norm_num at hp ⊢; linarith)
  rw [hv] at hz
  simp only [Option.map_some, Option.some.injEq] at hz
  exact ⟨s', v, by rw [h, ← hz], hN⟩

/-- **C67.** The distance from the earth's centre stays between perigee and apogee of the mean orbit, up to 0.4 %. -/
theorem C67_between_perigee_and_apogee (s s' s'' : Satrec ℝ) (o : SGP4InitOptions ℝ) (r : Except SGP4Error (SGP4Result ℝ)) (t : ℝ)
    (v : SGP4Result ℝ) (h : sgp4init s o = some (s', r)) (he : 0 ≤ o.xecco ∧ o.xecco < 1) (hN : s'.method = .N)
    (ht : sgp4 s' t = some (s'', .ok v)) :
    let q : Orbit :=
      { n := recoveredMotion o.xno o.xecco o.xinclo, e := o.xecco, inc := o.xinclo, argp := o.xargpo, anom := o.xmo, bstar := o.xbstar }
    let m := q.mean o.xnodeo t
    m.e ≤ 1 / 2 → 1 ≤ m.a * (1 - m.e) →
      0.996 * (m.a * (1 - m.e)) * 6378.137 ≤ Real.sqrt (v.position.x ^ 2 + v.position.y ^ 2 + v.position.z ^ 2) ∧
      Real.sqrt (v.position.x ^ 2 + v.position.y ^ 2 + v.position.z ^ 2) ≤ 1.004 * (m.a * (1 + m.e)) * 6378.137 := by
  intro q m h2 h3
  obtain ⟨k, -, -, -, hk, -⟩ := C64_near_earth_published s s' s'' o r t v h he hN ht
  have hm : 0 ≤ m.e ∧ m.e ≤ 1 / 2 := ⟨le_max_of_le_right (by norm_num), h2⟩
  obtain ⟨b1, b2, b3⟩ := distance_bounds m (m.newton k) hm h3
  have hk' : v.position = vec (m.positionKm (m.newton k)) := hk
  have hr0 : 0 ≤ m.rk (m.newton k) := le_trans (by linarith) b2
  have hsq : v.position.x ^ 2 + v.position.y ^ 2 + v.position.z ^ 2 = (m.rk (m.newton k) * kmPerRadius) ^ 2 := by
    rw [hk']
    show (m.positionKm (m.newton k) 0) ^ 2 + (m.positionKm (m.newton k) 1) ^ 2 + (m.positionKm (m.newton k) 2) ^ 2 = _
    generalize m.newton k = E
    unfold Mean.positionKm Mean.Uvec
    simp only [Matrix.cons_val_zero, Matrix.cons_val_one, Matrix.cons_val]
    generalize m.Ωk E = a, m.ik E = b, m.uk E = c, m.rk E = d
    have ea := Real.sin_sq_add_cos_sq a
    have eb := Real.sin_sq_add_cos_sq b
    have ec := Real.sin_sq_add_cos_sq c
    generalize Real.sin a = sa, Real.cos a = ca, Real.sin b = sb, Real.cos b = cb, Real.sin c = sc, Real.cos c = cc at *
    linear_combination (d * kmPerRadius) ^ 2 * ((cb ^ 2 * sc ^ 2 + cc ^ 2) * ea + sc ^ 2 * eb + ec)
  have hR : kmPerRadius = 6378.137 := rfl
  rw [hsq, Real.sqrt_sq (mul_nonneg hr0 (by rw [hR]; norm_num)), hR]
  constructor <;> gcongr

end Sat
