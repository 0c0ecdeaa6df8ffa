import Verif.Props.DeepEndToEnd
import Verif.Props.Accept
/-!
# Deep-space orbits above the atmosphere are accepted: C69

Exact arithmetic.  The size of the lunar-solar terms which reach the checks of `sgp4`, then acceptance.
-/

namespace Sat
open Spec.R3 Spec.SDP Spec

theorem dot_planeDir_self {cg sg ci si ch sh : ℝ} (hg : cg ^ 2 + sg ^ 2 = 1) (hi : ci ^ 2 + si ^ 2 = 1) (hh : ch ^ 2 + sh ^ 2 = 1) :
    dot (planeDir cg sg ci si ch sh) (planeDir cg sg ci si ch sh) = 1 := by
  unfold dot planeDir
  dsimp only
  linear_combination (cg ^ 2 + sg ^ 2 * ci ^ 2) * hh + sg ^ 2 * hi + hg

theorem dot_bound {a b : Vec3 ℝ} {A : ℝ} (hA : 0 ≤ A) (ha : dot a a ≤ A ^ 2) (hb : dot b b = 1) : |dot a b| ≤ A := by
  apply abs_le_of_sq_le_sq _ hA
  have : (dot a b) ^ 2 ≤ dot a a * dot b b := by
    unfold dot
    nlinarith [sq_nonneg (a.x * b.y - a.y * b.x), sq_nonneg (a.x * b.z - a.z * b.x), sq_nonneg (a.y * b.z - a.z * b.y)]
  rw [hb, mul_one] at this
  linarith

theorem moon_unit (day : ℝ) : dot (moon day).X (moon day).X = 1 ∧ dot (moon day).Y (moon day).Y = 1 := by
  have hc1 := Real.neg_one_le_cos (moonNode day)
  have hc2 := Real.cos_le_one (moonNode day)
  have c1 : 0.87 ≤ moonCosInc day := by unfold moonCosInc; norm_num at *; linarith
  have c2 : moonCosInc day ≤ 0.95 := by unfold moonCosInc; norm_num at *; linarith
  have hp : 0.09 ≤ 1 - moonCosInc day ^ 2 := by norm_num at *; nlinarith
  have hi2 : moonSinInc day ^ 2 = 1 - moonCosInc day ^ 2 := by
    unfold moonSinInc; rw [Real.sq_sqrt]; norm_num at hp; linarith
  have hr : moonSinRaan day ^ 2 ≤ 1 := by
    unfold moonSinRaan
    rw [div_pow, hi2, div_le_one (by norm_num at hp; linarith)]
    have h1 := Real.sin_sq_le_one (moonNode day)
    norm_num at hp
    rw [mul_pow]
    norm_num1
    linarith
  have hh : moonCosRaan day ^ 2 + moonSinRaan day ^ 2 = 1 := by
    unfold moonCosRaan; rw [Real.sq_sqrt (by linarith)]; ring
  have hg := Real.sin_sq_add_cos_sq (moonArgp day)
  exact ⟨dot_planeDir_self (by linarith) (by rw [hi2]; ring) hh, dot_planeDir_self (by linarith) (by rw [hi2]; ring) hh⟩

theorem sun_unit : dot sun.X sun.X ≤ 1.001 ^ 2 ∧ dot sun.Y sun.Y ≤ 1.001 ^ 2 := by
  unfold dot sun planeDir; constructor <;> norm_num

theorem target_unit (o : Target) : dot o.P o.P = 1 ∧ dot o.Q o.Q = 1 := by
  have h1 := Real.sin_sq_add_cos_sq o.inc
  have h2 := Real.sin_sq_add_cos_sq o.node
  have h3 := Real.sin_sq_add_cos_sq o.argp
  exact ⟨dot_planeDir_self (by linarith) (by linarith) (by linarith), dot_planeDir_self (by linarith) (by linarith) (by linarith)⟩

theorem formE_bound (o : Target) {U V : Vec3 ℝ} {A : ℝ} (hA : 0 ≤ A) (hU : dot U U ≤ A ^ 2) (hV : dot V V ≤ A ^ 2) :
    |o.formE U V| ≤ A ^ 2 := by
  unfold Target.formE
  rw [abs_mul, pow_two]
  exact mul_le_mul (dot_bound hA hU (target_unit o).1) (dot_bound hA hV (target_unit o).2) (abs_nonneg _) hA

theorem f23_bound (b : Perturber) (M : ℝ) : |b.f2 M| ≤ 1 / 4 ∧ |b.f3 M| ≤ 1 / 4 := by
  have h := Real.sin_sq_add_cos_sq (b.ζ M)
  unfold Perturber.f2 Perturber.f3
  constructor <;> rw [abs_le] <;> constructor <;>
    nlinarith [sq_nonneg (Real.sin (b.ζ M) + Real.cos (b.ζ M)), sq_nonneg (Real.sin (b.ζ M) - Real.cos (b.ζ M)),
      sq_nonneg (Real.sin (b.ζ M)), sq_nonneg (Real.cos (b.ζ M))]

/-- periodic and secular eccentricity terms due to one body -/
theorem body_bound (o : Target) (b : Perturber) {A : ℝ} (hA : 0 ≤ A) (hX : dot b.X b.X ≤ A ^ 2) (hY : dot b.Y b.Y ≤ A ^ 2)
    (hn : 0 < o.n) (he : 0 ≤ o.e) (hc : 0 ≤ b.cc) (hz : 0 ≤ b.zn) (M : ℝ) :
    |o.perE b M| ≤ 30 * b.cc * A ^ 2 * (o.e / o.n) ∧ |o.rateE b| ≤ 30 * b.zn * b.cc * A ^ 2 * (o.e / o.n) := by
  have hβ0 : 0 ≤ o.β := Real.sqrt_nonneg _
  have hβ : o.β ≤ 1 := by
    unfold Target.β; exact Real.sqrt_le_iff.mpr ⟨by norm_num, by nlinarith⟩
  have hs1 : |o.s1 b| ≤ 15 * b.cc * (o.e / o.n) := by
    unfold Target.s1 Target.s4 Target.s3
    rw [show -15 * o.e * (b.cc / o.n * o.β) = -(15 * b.cc * (o.e / o.n) * o.β) by ring, abs_neg, abs_of_nonneg (by positivity)]
    exact mul_le_of_le_one_right (by positivity) hβ
  have hXX := formE_bound o hA hX hX
  have hXY := formE_bound o hA hX hY
  have hYX := formE_bound o hA hY hX
  have hYY := formE_bound o hA hY hY
  obtain ⟨f2, f3⟩ := f23_bound b M
  have hosc : |Target.osc b o.formE M| ≤ A ^ 2 := by
    unfold Target.osc
    have e1 : |(o.formE b.X b.Y + o.formE b.Y b.X) * b.f2 M| ≤ (2 * A ^ 2) * (1 / 4) := by
      rw [abs_mul]
      exact mul_le_mul (le_trans (abs_add_le _ _) (by linarith)) f2 (abs_nonneg _) (by positivity)
    have e2 : |(o.formE b.Y b.Y - o.formE b.X b.X) * b.f3 M| ≤ (2 * A ^ 2) * (1 / 4) := by
      rw [abs_mul]
      exact mul_le_mul (le_trans (abs_sub _ _) (by linarith)) f3 (abs_nonneg _) (by positivity)
    exact le_trans (abs_add_le _ _) (by linarith)
  constructor
  · unfold Target.perE
    rw [abs_mul, abs_mul, abs_of_pos (show (0 : ℝ) < 2 by norm_num)]
    calc 2 * |o.s1 b| * |Target.osc b o.formE M| ≤ 2 * (15 * b.cc * (o.e / o.n)) * A ^ 2 := by gcongr
      _ = _ := by ring
  · unfold Target.rateE
    rw [abs_mul, abs_mul, abs_of_nonneg hz]
    calc b.zn * |o.s1 b| * |o.formE b.X b.X + o.formE b.Y b.Y| ≤ b.zn * (15 * b.cc * (o.e / o.n)) * (2 * A ^ 2) := by
          gcongr; exact le_trans (abs_add_le _ _) (by linarith)
      _ = _ := by ring

/-- **C69.** The lunar-solar terms of the eccentricity, Sun and Moon together: the periodic ones at any time are at most
`1.05e-4 e / n`, the secular rate at most `3.4e-9 e / n` per minute (`n` in rad/min). -/
theorem C69_lunar_solar_size (o : Target) (hn : 0 < o.n) (he : 0 ≤ o.e) (day M M' : ℝ) :
    |o.perE sun M + o.perE (moon day) M'| ≤ 1.05e-4 * (o.e / o.n) ∧
    |o.rateE sun + o.rateE (moon day)| ≤ 3.4e-9 * (o.e / o.n) := by
  obtain ⟨s1, s2⟩ := body_bound o sun (A := 1.001) (by norm_num) sun_unit.1 sun_unit.2 hn he (by unfold sun; norm_num)
    (by unfold sun; norm_num) M
  obtain ⟨m1, m2⟩ := body_bound o (moon day) (A := 1) (by norm_num) (by rw [(moon_unit day).1]; norm_num)
    (by rw [(moon_unit day).2]; norm_num) hn he (by unfold moon; norm_num) (by unfold moon; norm_num) M'
  have hq : 0 ≤ o.e / o.n := by positivity
  have c1 : sun.cc = 2.9864797 / 10 ^ 6 := rfl
  have c2 : sun.zn = 1.19459 / 10 ^ 5 := rfl
  have c3 : (moon day).cc = 4.7968065 / 10 ^ 7 := rfl
  have c4 : (moon day).zn = 1.5835218 / 10 ^ 4 := rfl
  rw [c1] at s1 s2
  rw [c2] at s2
  rw [c3] at m1 m2
  rw [c4] at m2
  generalize o.e / o.n = x at *
  constructor
  · refine le_trans (abs_add_le _ _) (le_trans (add_le_add s1 m1) ?_)
    norm_num; nlinarith
  · refine le_trans (abs_add_le _ _) (le_trans (add_le_add s2 m2) ?_)
    norm_num; nlinarith

theorem deep_of_motion {s s' : Satrec ℝ} {o : SGP4InitOptions ℝ} {r : Except SGP4Error (SGP4Result ℝ)}
    (h : sgp4init s o = some (s', r)) (he : 0 ≤ o.xecco ∧ o.xecco < 1)
    (hn : 225 ≤ 2 * Real.pi / recoveredMotion o.xno o.xecco o.xinclo) : s'.method = .D := by
  have hc := (C07_classification s s' o r h (Or.inl (guard_real he))).1
  rw [C56_recovered_motion s s' o r h he] at hc
  simp only [real_fle, real_TWO_PI, decide_eq_true_eq] at hc
  apply hc.mpr
  norm_num at hn ⊢
  linarith

/-- **C69.** A deep-space satellite (recovered period of at least 225 min) whose mean orbit at time `t` has an eccentricity of at most
one half and a perigee of at least 1.01 earth radii, and whose eccentricity is not carried below zero by the lunar-solar periodics,
is never rejected. -/
theorem C69_deep_accepted (s s' : Satrec ℝ) (o : SGP4InitOptions ℝ) (r : Except SGP4Error (SGP4Result ℝ)) (t : ℝ)
    (h : sgp4init s o = some (s', r)) (he : 0 ≤ o.xecco ∧ o.xecco < 1)
    (hn0 : 0 < recoveredMotion o.xno o.xecco o.xinclo) (hn : 225 ≤ 2 * Real.pi / recoveredMotion o.xno o.xecco o.xinclo) :
    let q : Orbit :=
      { n := recoveredMotion o.xno o.xecco o.xinclo, e := o.xecco, inc := o.xinclo, argp := o.xargpo, anom := o.xmo, bstar := o.xbstar }
    let day := o.epoch + 18261.5
    let m := carriedMean q o.xnodeo day t
    1.05e-4 * o.xecco ≤ q.n * eccentricityRaw q o.xnodeo day t → 1.05e-4 * o.xecco ≤ q.n / 2 →
    eccentricityRaw q o.xnodeo day t ≤ 1 / 2 → 1.01 ≤ m.a * (1 - m.e) → ∃ s'' v, sgp4 s' t = some (s'', .ok v) := by
  intro q day m h1 h1' h2 h3
  have hD := deep_of_motion h he hn
  obtain ⟨k, -, -, -, hk⟩ := C62_deep_space_outcome s s' o r t h he hD
  have hm : 0 ≤ m.e ∧ m.e ≤ 1 / 2 := ⟨le_max_of_le_right (by norm_num), max_le h2 (by norm_num)⟩
  obtain ⟨b1, b2, -⟩ := distance_bounds m (m.newton k) hm (by linarith)
  have hq : q.n = recoveredMotion o.xno o.xecco o.xinclo := rfl
  have hqn : 0 < q.n := hn0
  have hsz := (C69_lunar_solar_size (targetAt q o.xnodeo) hn0 he.1 day (sunAnomaly day t) (moonAnomaly day t)).1
  rw [abs_le] at hsz
  have hte : (targetAt q o.xnodeo).e / (targetAt q o.xnodeo).n = o.xecco / q.n := rfl
  rw [hte] at hsz
  have hb : 1.05e-4 * (o.xecco / q.n) ≤ eccentricityRaw q o.xnodeo day t := by
    rw [← mul_div_assoc, div_le_iff₀ hqn, mul_comm (eccentricityRaw _ _ _ _)]; exact h1
  have hb' : 1.05e-4 * (o.xecco / q.n) ≤ 1 / 2 := by
    rw [← mul_div_assoc, div_le_iff₀ hqn]; linarith
  have hraw0 : 0 ≤ eccentricityRaw q o.xnodeo day t := le_trans (by have := he.1; positivity) hb
  have hle : eccentricityRaw q o.xnodeo day t ≤ m.e := le_max_left _ _
  rw [if_neg (not_le.mpr hn0), if_neg (by
    push Not; exact ⟨lt_of_le_of_lt h2 (by norm_num), le_trans (by norm_num) hraw0⟩),
    if_neg (by
      push Not
      have g1 := hsz.1
      have g2 := hsz.2
      have g3 := hm.2
      constructor
      · show 0 ≤ m.e + ((targetAt q o.xnodeo).perE sun (sunAnomaly day t) + (targetAt q o.xnodeo).perE (moon day) (moonAnomaly day t))
        linarith
      · show m.e + ((targetAt q o.xnodeo).perE sun (sunAnomaly day t) + (targetAt q o.xnodeo).perE (moon day) (moonAnomaly day t)) ≤ 1
        linarith), if_neg (not_lt.mpr b1),
    if_neg (show ¬ m.rk (m.newton k) < 1 from not_lt.mpr (by linarith))] at hk
  cases hs : sgp4 s' t with
  | none => rw [hs] at hk; cases hk
  | some p =>
    rw [hs] at hk
    obtain ⟨s'', v⟩ := p
    simp only [Option.map_some, Option.some.injEq] at hk
    subst hk
    exact ⟨s'', _, rfl⟩

/-- **C69.** Without drag: every deep-space orbit with a period of up to about 30 hours, eccentricity at most 0.45, and perigee above
1.01 earth radii even if the eccentricity grew by a tenth, is accepted at every time up to 69 days before and after its epoch. -/
theorem C69_accepted_without_drag (s s' : Satrec ℝ) (o : SGP4InitOptions ℝ) (r : Except SGP4Error (SGP4Result ℝ)) (t : ℝ)
    (h : sgp4init s o = some (s', r)) (hd : o.xbstar = 0) (he : 0 ≤ o.xecco ∧ o.xecco ≤ 0.45)
    (hn0 : 0.0035 ≤ recoveredMotion o.xno o.xecco o.xinclo) (hn : 225 ≤ 2 * Real.pi / recoveredMotion o.xno o.xecco o.xinclo)
    (hp : 1.0101 ≤ (ke / recoveredMotion o.xno o.xecco o.xinclo) ^ (2 / 3 : ℝ) * (1 - 1.1 * o.xecco)) (ht : |t| ≤ 100000) :
    ∃ s'' v, sgp4 s' t = some (s'', .ok v) := by
  have he1 : 0 ≤ o.xecco ∧ o.xecco < 1 := ⟨he.1, lt_of_le_of_lt he.2 (by norm_num)⟩
  have hn1 : 0 < recoveredMotion o.xno o.xecco o.xinclo := lt_of_lt_of_le (by norm_num) hn0
  set q : Orbit := ⟨recoveredMotion o.xno o.xecco o.xinclo, o.xecco, o.xinclo, o.xargpo, o.xmo, o.xbstar⟩ with hq
  have hqn : q.n = recoveredMotion o.xno o.xecco o.xinclo := rfl
  have hqa : q.a = (ke / recoveredMotion o.xno o.xecco o.xinclo) ^ (2 / 3 : ℝ) := rfl
  have hqb : q.bstar = 0 := hd
  rw [← hqa] at hp
  rw [← hqn] at hn0 hn1
  have ha0 : 0 ≤ q.a := by rw [hqa]; apply Real.rpow_nonneg; rw [← hqn]; unfold ke; positivity
  set raw := eccentricityRaw q o.xnodeo (o.epoch + 18261.5) t with hraw
  have hr : |raw - o.xecco| ≤ 0.1 * o.xecco := by
    have e : raw - o.xecco = ((targetAt q o.xnodeo).rateE sun + (targetAt q o.xnodeo).rateE (moon (o.epoch + 18261.5))) * t := by
      rw [hraw]; unfold eccentricityRaw; rw [hqb]
      show o.xecco + _ - _ - o.xecco = _
      ring
    have hs := (C69_lunar_solar_size (targetAt q o.xnodeo) hn1 he.1 (o.epoch + 18261.5) 0 0).2
    have hte : (targetAt q o.xnodeo).e / (targetAt q o.xnodeo).n = o.xecco / q.n := rfl
    rw [hte] at hs
    rw [e, abs_mul]
    have hx : o.xecco / q.n ≤ o.xecco / 0.0035 := div_le_div_of_nonneg_left he.1 (by norm_num) hn0
    calc _ ≤ 3.4e-9 * (o.xecco / 0.0035) * 100000 := by
          apply mul_le_mul _ ht (abs_nonneg _)
          · have := he.1; positivity
          · refine le_trans hs ?_; gcongr
      _ ≤ 0.1 * o.xecco := by
          have := he.1
          norm_num; linarith
  rw [abs_le] at hr
  have he0 := he.1
  have he2 := he.2
  have hlow : 0.9 * o.xecco ≤ raw := by norm_num at hr ⊢; linarith [hr.1]
  have hup : raw ≤ 1.1 * o.xecco := by norm_num at hr ⊢; linarith [hr.2]
  refine C69_deep_accepted s s' o r t h he1 hn1 hn ?_ ?_ ?_ ?_
  · show 1.05e-4 * o.xecco ≤ q.n * raw
    calc 1.05e-4 * o.xecco ≤ 0.0035 * (0.9 * o.xecco) := by norm_num; linarith
      _ ≤ q.n * raw := by gcongr
  · show 1.05e-4 * o.xecco ≤ q.n / 2
    norm_num at hn0 he2 ⊢; linarith
  · show raw ≤ 1 / 2
    norm_num at hup he2 ⊢; linarith
  · show 1.01 ≤ q.a * (1 - q.C1 * t) ^ 2 * (1 - max raw (1 / 10 ^ 6))
    have hC : q.C1 = 0 := by unfold Orbit.C1; rw [hqb, zero_mul]
    rw [hC]
    rcases le_total raw (1 / 10 ^ 6) with hx | hx
    · rw [max_eq_right hx]
      have : q.a * (1 - 1.1 * o.xecco) ≤ q.a * 1 := by gcongr; norm_num; linarith
      norm_num at hp this ⊢
      linarith
    · rw [max_eq_left hx]
      have : q.a * (1 - 1.1 * o.xecco) ≤ q.a * (1 - raw) := by gcongr
      norm_num at hp this ⊢
      linarith

theorem result_scratch_deep {F : Type} [Arith F] (x : Satrec F) (hD : x.method = .D) (t t0 : F) (er : Nat) (i : DpperInit) (a b c d e : F) :
    Spec.result { x with t := t0, error := er, init := i, aycof := a, xlcof := b, con41 := c, x1mth2 := d, x7thm1 := e } t =
      Spec.result x t := by
  have hin : Spec.incl { x with t := t0, error := er, init := i, aycof := a, xlcof := b, con41 := c, x1mth2 := d, x7thm1 := e } t =
    Spec.incl x t := rfl
  apply result_congr <;> first | rfl | (intro _; rfl) | skip
  · unfold Spec.ayCoef; rw [hin, if_pos hD, if_pos hD]
  · unfold Spec.xlCoef; rw [hin, if_pos hD, if_pos hD]
  · unfold Spec.threeCos; rw [hin, if_pos hD, if_pos hD]
  · unfold Spec.oneMinusCos; rw [hin, if_pos hD, if_pos hD]
  · unfold Spec.sevenCos; rw [hin, if_pos hD, if_pos hD]

/-- At the epoch initialisation reports what propagation to time zero reports. -/
theorem init_reports_epoch (s s' : Satrec ℝ) (o : SGP4InitOptions ℝ) (r : Except SGP4Error (SGP4Result ℝ)) (h : sgp4init s o = some (s', r)) :
    (sgp4 s' 0).map Prod.snd = some r := by
  obtain ⟨s1, r1, h1⟩ := C09_sgp4_returns s' 0
  obtain ⟨s2, h2⟩ := sgp4init_outcome s o
  rw [h] at h2
  simp only [Option.some.injEq, Prod.mk.injEq] at h2
  obtain ⟨rfl, rfl⟩ := h2
  rw [h1]
  show some r1 = _
  rw [C16_outcome _ _ _ _ h1]
  congr 1
  have hl := (sgp4init_left h).1
  cases hm : (initRecord s o).method with
  | N => rw [(sgp4init_left h).2 hm, result_scratch]
  | D =>
    rw [hl, result_scratch_deep _ hm]

/-- **C69**, at the epoch: initialisation accepts every such element set with a period of up to 41 days. -/
theorem C69_accepted_at_epoch (s : Satrec ℝ) (o : SGP4InitOptions ℝ) (he : 0 ≤ o.xecco ∧ o.xecco ≤ 1 / 2)
    (hn0 : 1.06e-4 ≤ recoveredMotion o.xno o.xecco o.xinclo) (hn : 225 ≤ 2 * Real.pi / recoveredMotion o.xno o.xecco o.xinclo)
    (hp : 1.0101 ≤ (ke / recoveredMotion o.xno o.xecco o.xinclo) ^ (2 / 3 : ℝ) * (1 - o.xecco)) :
    ∃ s' v, sgp4init s o = some (s', .ok v) ∧ s'.method = .D := by
  have he1 : 0 ≤ o.xecco ∧ o.xecco < 1 := ⟨he.1, lt_of_le_of_lt he.2 (by norm_num)⟩
  have hn1 : 0 < recoveredMotion o.xno o.xecco o.xinclo := lt_of_lt_of_le (by norm_num) hn0
  obtain ⟨s', h⟩ := sgp4init_outcome s o
  have hD := deep_of_motion h he1 hn
  have hz := init_reports_epoch s s' o _ h
  set q : Orbit := ⟨recoveredMotion o.xno o.xecco o.xinclo, o.xecco, o.xinclo, o.xargpo, o.xmo, o.xbstar⟩ with hq
  have hqa : q.a = (ke / recoveredMotion o.xno o.xecco o.xinclo) ^ (2 / 3 : ℝ) := rfl
  have hqn : q.n = recoveredMotion o.xno o.xecco o.xinclo := rfl
  rw [← hqa] at hp
  rw [← hqn] at hn0 hn1
  have ha0 : 0 ≤ q.a := by rw [hqa]; apply Real.rpow_nonneg; rw [← hqn]; unfold ke; positivity
  have hE : eccentricityRaw q o.xnodeo (o.epoch + 18261.5) 0 = o.xecco := by unfold eccentricityRaw; simp [hq]
  have he0 := he.1
  have he2 := he.2
  obtain ⟨s'', v, hv⟩ := C69_deep_accepted s s' o _ 0 h he1 hn1 hn
    (by show 1.05e-4 * o.xecco ≤ q.n * eccentricityRaw q o.xnodeo (o.epoch + 18261.5) 0
        rw [hE]; gcongr; refine le_trans ?_ hn0; norm_num)
    (by show 1.05e-4 * o.xecco ≤ q.n / 2; norm_num at hn0 ⊢; linarith)
    (by rw [hE]; exact he2)
    (by
      show 1.01 ≤ q.a * (1 - q.C1 * 0) ^ 2 * (1 - max (eccentricityRaw q o.xnodeo (o.epoch + 18261.5) 0) (1 / 10 ^ 6))
      rw [hE]
      rcases le_total o.xecco (1 / 10 ^ 6) with hx | hx
      · rw [max_eq_right hx]
        have : q.a * (1 - o.xecco) ≤ q.a * 1 := by gcongr; linarith [he.1]
        norm_num at hp ⊢
        linarith
      · rw [max_eq_left hx]; norm_num at hp ⊢; linarith)
  rw [hv] at hz
  simp only [Option.map_some, Option.some.injEq] at hz
  exact ⟨s', v, by rw [h, ← hz], hD⟩

end Sat
