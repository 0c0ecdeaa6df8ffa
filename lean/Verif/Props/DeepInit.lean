import Verif.Props.Deep
/-!
# Deep-space initialisation and periodics over the reals: C49, C51, C52, C53, C54
-/

set_option linter.unusedSimpArgs false

namespace Sat
open Spec

theorem real_lits : (0.0:ℝ) = 0 ∧ (1.0:ℝ) = 1 ∧ (2.0:ℝ) = 2 := by norm_num

/-! ## C51 -/

/-- The mean motion lies in the one-day window. -/
def DayWindow (n : ℝ) : Prop := 0.0034906585 < n ∧ n < 0.0052359877
/-- Mean motion and eccentricity lie in the half-day window. -/
def HalfDayWindow (n e : ℝ) : Prop := 8.26e-3 ≤ n ∧ n ≤ 9.24e-3 ∧ 0.5 ≤ e

/-- **C51.** The reported resonance class. -/
theorem C51_class (o : DsinitOptions ℝ) (k : Resonance ℝ) :
    (DayWindow o.nm → (dsinit o k).irez = 1) ∧ (HalfDayWindow o.nm o.em → (dsinit o k).irez = 2) ∧
    (¬ DayWindow o.nm → ¬ HalfDayWindow o.nm o.em → (dsinit o k).irez = 0) := by
  have hi : (dsinit o k).irez = resonanceClass o.nm o.em := by
    unfold dsinit; dsimp only; split <;> rfl
  rw [hi]
  unfold DayWindow HalfDayWindow resonanceClass
  simp only [real_flt, real_fle, Bool.and_eq_true, decide_eq_true_eq, real_lits]
  refine ⟨fun ⟨h1, h2⟩ => ?_, fun ⟨h1, h2, h3⟩ => ?_, fun h1 h2 => ?_⟩
  · rw [if_neg (by rintro ⟨⟨h3, -⟩, -⟩; norm_num at h2 h3; linarith), if_pos ⟨h2, h1⟩]
  · rw [if_pos ⟨⟨h1, h2⟩, h3⟩]
  · rw [if_neg (by rintro ⟨⟨h3, h4⟩, h5⟩; exact h2 ⟨h3, h4, h5⟩), if_neg (by rintro ⟨h3, h4⟩; exact h1 ⟨h4, h3⟩)]

/-- **C51.** What `dsinit` does to the resonance coefficients: a non-resonant orbit keeps all of them and its mean motion; a
resonant one starts the integrator at epoch and keeps the coefficients of the other kind of resonance. -/
theorem C51_coefficients (o : DsinitOptions ℝ) (k : Resonance ℝ) :
    (¬ DayWindow o.nm → ¬ HalfDayWindow o.nm o.em → (dsinit o k).res = k ∧ (dsinit o k).nm = o.nm) ∧
    (DayWindow o.nm → let q := (dsinit o k).res
      q.atime = 0 ∧ q.xni = o.no ∧ q.xli = q.xlamo ∧
      (q.d2201, q.d2211, q.d3210, q.d3222, q.d4410, q.d4422, q.d5220, q.d5232, q.d5421, q.d5433) =
        (k.d2201, k.d2211, k.d3210, k.d3222, k.d4410, k.d4422, k.d5220, k.d5232, k.d5421, k.d5433)) ∧
    (HalfDayWindow o.nm o.em → let q := (dsinit o k).res
      q.atime = 0 ∧ q.xni = o.no ∧ q.xli = q.xlamo ∧ (q.del1, q.del2, q.del3) = (k.del1, k.del2, k.del3)) := by
  obtain ⟨h1, h2, h3⟩ := C51_class o k
  have hi : (dsinit o k).irez = resonanceClass o.nm o.em := by
    unfold dsinit; dsimp only; split <;> rfl
  rw [hi] at h1 h2 h3
  have c00 : ((0:ℝ) ==. 0.0) = true := by simp [real_lits]
  have c10 : ((1:ℝ) ==. 0.0) = false := by simp [real_lits]
  have c12 : ((1:ℝ) ==. 2.0) = false := by simp [real_lits]
  have c11 : ((1:ℝ) ==. 1.0) = true := by simp [real_lits]
  have c20 : ((2:ℝ) ==. 0.0) = false := by simp [real_lits]
  have c22 : ((2:ℝ) ==. 2.0) = true := by simp [real_lits]
  have c21 : ((2:ℝ) ==. 1.0) = false := by simp [real_lits]
  refine ⟨fun a b => ?_, fun a => ?_, fun a => ?_⟩ <;> unfold dsinit <;> dsimp only
  · rw [h3 a b]; simp only [c00, if_true]; exact ⟨trivial, trivial⟩
  · rw [h1 a]; simp only [c10, c12, c11, if_true, Bool.false_eq_true, if_false]
    exact ⟨real_lits.1, trivial, trivial, rfl⟩
  · rw [h2 a]; simp only [c20, c22, c21, if_true, Bool.false_eq_true, if_false]
    exact ⟨real_lits.1, trivial, trivial, rfl⟩

/-- The three cases occur: a geostationary, a Molniya and a GPS orbit. -/
example : DayWindow 0.0043752 ∧ HalfDayWindow 0.00875 0.7 ∧ ¬ DayWindow 0.00875 ∧ ¬ HalfDayWindow 0.00875 0.01 := by
  unfold DayWindow HalfDayWindow; norm_num

/-! ## C49 -/

/-- periodics after subtraction of the epoch values, as `dpper` uses them -/
noncomputable def netPeriodics (s : Satrec ℝ) : Periodics ℝ :=
  let p := periodics s .N
  { pe := p.pe - s.peo, pinc := p.pinc - s.pinco, pl := p.pl - s.plo, pgh := p.pgh - s.pgho, ph := p.ph - s.pho }

theorem dpperTWO_PI_real : (dpperTWO_PI : ℝ) = 2 * Real.pi := by
  simp only [dpperTWO_PI, real_pi]; norm_num

/-- **C49.** Low inclination.  `i'` is the perturbed inclination, `red` the reduced input node (`[0, 2π)` in AFSPC mode,
`(-2π, 2π)` otherwise).  The returned node is within π of `red` and points in the direction of the perturbed node vector
`(bet, alf)`; the sum `argp + m + cos i' * node` changes by the periodic terms only. -/
theorem C49_lyddane (s : Satrec ℝ) (o : DpperOptions ℝ) (hN : o.init = .N)
    (hlow : o.inclp + (netPeriodics s).pinc < 0.2) :
    let p := netPeriodics s
    let i' := o.inclp + p.pinc
    let r := dpper s o
    let alf := Real.sin i' * Real.sin o.nodep + (p.ph * Real.cos o.nodep + p.pinc * Real.cos i' * Real.sin o.nodep)
    let bet := Real.sin i' * Real.cos o.nodep + (-p.ph * Real.sin o.nodep + p.pinc * Real.cos i' * Real.cos o.nodep)
    ∃ red, SameAngle red o.nodep ∧ |red| < 2 * Real.pi ∧ (o.opsmode = .A → 0 ≤ red) ∧
      |r.nodep - red| ≤ Real.pi ∧
      Real.sqrt (bet ^ 2 + alf ^ 2) * Real.cos r.nodep = bet ∧ Real.sqrt (bet ^ 2 + alf ^ 2) * Real.sin r.nodep = alf ∧
      r.inclp = i' ∧ r.ep = o.ep + p.pe ∧ r.mp = o.mp + p.pl ∧
      r.argpp + r.mp + Real.cos i' * r.nodep =
        o.argpp + o.mp + Real.cos i' * red + (p.pl + p.pgh - p.pinc * red * Real.sin i') := by
  intro p i' r alf bet
  have hr : r = lyddane o.opsmode p (o.ep + p.pe) i' (Real.sin i') (Real.cos i') o.nodep o.argpp o.mp := by
    show dpper s o = _
    unfold dpper
    dsimp only
    rw [if_pos hN, if_neg]
    · simp only [hN]; rfl
    · simp only [hN, real_fle, decide_eq_true_eq, not_le]
      exact hlow
  have hpi := Real.pi_pos
  have e0 := real_lits.1
  set red0 := remR o.nodep (2 * Real.pi) with hred0
  set red := if red0 < 0 ∧ o.opsmode = .A then red0 + 2 * Real.pi else red0 with hred
  set n0 := atan2R alf bet with hn0
  set n1 := if n0 < 0 ∧ o.opsmode = .A then n0 + 2 * Real.pi else n0 with hn1
  set n2 := if |red - n1| > Real.pi then (if n1 < red then n1 + 2 * Real.pi else n1 - 2 * Real.pi) else n1 with hn2
  have hr2 : r = ⟨o.ep + p.pe, i', n2,
      o.mp + o.argpp + Real.cos i' * red + (p.pl + p.pgh - p.pinc * red * Real.sin i') - (o.mp + p.pl)
        - Real.cos i' * n2, o.mp + p.pl⟩ := by
    rw [hr]
    unfold lyddane
    simp only [real_sin, real_cos, real_rem, dpperTWO_PI_real, real_flt, real_abs, real_atan2, real_pi, e0,
      Bool.and_eq_true, decide_eq_true_eq, beq_iff_eq]
    rw [hn2, hn1, hred, hn0, hred0]
  have hb0 := abs_lt.mp (remR_lt (by linarith : 0 < 2 * Real.pi) o.nodep)
  rw [← hred0] at hb0
  have hat := atan2R_mem alf bet
  rw [← hn0] at hat
  obtain ⟨hat1, hat2⟩ := hat
  have hredA : SameAngle red o.nodep ∧ |red| < 2 * Real.pi ∧ (o.opsmode = .A → 0 ≤ red) := by
    obtain ⟨k, hk⟩ := remR_congr o.nodep (2 * Real.pi)
    rw [← hred0] at hk
    rw [hred]
    split
    · rename_i h
      refine ⟨⟨1 - k, by rw [hk]; push_cast; ring⟩, ?_, fun _ => by linarith [hb0.1]⟩
      rw [abs_lt]; constructor <;> linarith [hb0.1, h.1]
    · rename_i h
      refine ⟨⟨-k, by rw [hk]; push_cast; ring⟩, abs_lt.mpr hb0, fun hA => ?_⟩
      by_contra hneg
      exact h ⟨not_le.mp hneg, hA⟩
  have hn1b : SameAngle n1 n0 ∧ |red - n1| < 3 * Real.pi := by
    have hredb := abs_lt.mp hredA.2.1
    rw [hn1]
    split
    · rename_i h
      have := hredA.2.2 h.2
      refine ⟨⟨1, by push_cast; ring⟩, ?_⟩
      rw [abs_lt]; constructor <;> linarith [h.1]
    · refine ⟨⟨0, by push_cast; ring⟩, ?_⟩
      rw [abs_lt]; constructor <;> linarith
  have hn2b : SameAngle n2 n0 ∧ |n2 - red| ≤ Real.pi := by
    obtain ⟨⟨k, hk⟩, hb⟩ := hn1b
    have hb := abs_lt.mp hb
    rw [hn2]
    split
    · rename_i h
      split
      · rename_i h1
        refine ⟨⟨k + 1, by rw [hk]; push_cast; ring⟩, ?_⟩
        rw [abs_of_pos (by linarith)] at h
        rw [abs_le]; constructor <;> linarith
      · rename_i h1
        refine ⟨⟨k - 1, by rw [hk]; push_cast; ring⟩, ?_⟩
        rw [abs_of_nonpos (by linarith [not_lt.mp h1])] at h
        rw [abs_le]; constructor <;> linarith
    · rename_i h
      refine ⟨⟨k, hk⟩, ?_⟩
      rw [abs_sub_comm]; exact not_lt.mp h
  have hsc : Real.cos n2 = Real.cos n0 ∧ Real.sin n2 = Real.sin n0 := by
    obtain ⟨⟨k, hk⟩, -⟩ := hn2b
    rw [hk, Real.cos_add_int_mul_two_pi, Real.sin_add_int_mul_two_pi]; exact ⟨rfl, rfl⟩
  refine ⟨red, hredA.1, hredA.2.1, hredA.2.2, ?_⟩
  rw [hr2]
  refine ⟨hn2b.2, ?_, ?_, rfl, rfl, rfl, ?_⟩
  · show _ * Real.cos n2 = _
    rw [hsc.1]; exact atan2R_cos alf bet
  · show _ * Real.sin n2 = _
    rw [hsc.2]; exact atan2R_sin alf bet
  · dsimp only; ring

/-- **C49, complement.** At inclinations of at least 0.2 the terms are added directly; the sum `argp + cos i' * node`
changes by `pgh` whatever the sine of the inclination is. -/
theorem C49_direct (s : Satrec ℝ) (o : DpperOptions ℝ) (hN : o.init = .N)
    (hhigh : 0.2 ≤ o.inclp + (netPeriodics s).pinc) :
    let p := netPeriodics s
    let i' := o.inclp + p.pinc
    let r := dpper s o
    r.inclp = i' ∧ r.ep = o.ep + p.pe ∧ r.mp = o.mp + p.pl ∧ r.nodep = o.nodep + p.ph / Real.sin i' ∧
      r.argpp + Real.cos i' * r.nodep = o.argpp + Real.cos i' * o.nodep + p.pgh := by
  intro p i' r
  have hr : r = applyDirect p (o.ep + p.pe) i' (Real.sin i') (Real.cos i') o.nodep o.argpp o.mp := by
    show dpper s o = _
    unfold dpper
    dsimp only
    rw [if_pos hN, if_pos]
    · simp only [hN]; rfl
    · simp only [hN, real_fle, decide_eq_true_eq]
      exact hhigh
  rw [hr]
  unfold applyDirect
  refine ⟨rfl, rfl, rfl, rfl, ?_⟩
  dsimp only; ring

/-! ## C53 -/

/-- sidereal time in AFSPC mode is reduced to one turn -/
theorem gstoAfspc_range (e : ℝ) : 0 ≤ gstoAfspc e ∧ gstoAfspc e < 2 * Real.pi := by
  have hpi := Real.pi_pos
  unfold gstoAfspc
  simp only [real_rem, real_TWO_PI, real_flt, decide_eq_true_eq, real_lits]
  generalize hx : (1.7321343856509374 + _ + _ + _ : ℝ) = x
  have h := abs_lt.mp (remR_lt (by linarith : 0 < 2 * Real.pi) x)
  split <;> constructor <;> linarith

/-- **C53.** The quantities `initl` derives from the elements. -/
theorem C53_initl (o : InitlOptions ℝ) (he : 0 ≤ o.ecco ∧ o.ecco < 1) (hn : 0 < (initl o).no) :
    let r := initl o
    r.con41 = 3 * Real.cos o.inclo ^ 2 - 1 ∧ r.con42 = 1 - 5 * Real.cos o.inclo ^ 2 ∧
    r.cosio = Real.cos o.inclo ∧ r.sinio = Real.sin o.inclo ∧ r.cosio2 = Real.cos o.inclo ^ 2 ∧
    r.eccsq = o.ecco ^ 2 ∧ r.omeosq = 1 - o.ecco ^ 2 ∧ 0 < r.omeosq ∧ r.rteosq ^ 2 = r.omeosq ∧
    0 < r.ao ∧ r.ainv * r.ao = 1 ∧ r.posq = (r.ao * (1 - o.ecco ^ 2)) ^ 2 ∧ r.rp = r.ao * (1 - o.ecco) ∧
    r.ao ^ 3 * r.no ^ 2 = (XKE : ℝ) ^ 2 ∧
    0 ≤ r.gsto ∧ r.gsto < 2 * Real.pi ∧ r.method = .N := by
  intro r
  have hx : (0:ℝ) < XKE := by unfold XKE; norm_num
  have hao : 0 < r.ao := Real.rpow_pos_of_pos (div_pos hx hn) _
  have hom : (0:ℝ) < 1 - o.ecco * o.ecco := by nlinarith [he.1, he.2]
  have hro : r.omeosq = 1 - o.ecco * o.ecco := by
    show (1.0:ℝ) - o.ecco * o.ecco = _; rw [real_lits.2.1]
  refine ⟨?_, ?_, rfl, rfl, (sq _).symm, (sq _).symm, ?_, ?_, ?_, hao, ?_, ?_, ?_, ?_, ?_, ?_, rfl⟩
  · show -((1.0:ℝ) - 5.0 * (Real.cos o.inclo * Real.cos o.inclo)) - Real.cos o.inclo * Real.cos o.inclo
      - Real.cos o.inclo * Real.cos o.inclo = _
    rw [real_lits.2.1, show (5.0:ℝ) = 5 by norm_num]; ring
  · show (1.0:ℝ) - 5.0 * (Real.cos o.inclo * Real.cos o.inclo) = _
    rw [real_lits.2.1, show (5.0:ℝ) = 5 by norm_num]; ring
  · rw [hro]; ring
  · rw [hro]; exact hom
  · show Real.sqrt r.omeosq ^ 2 = r.omeosq
    rw [Real.sq_sqrt]; rw [hro]; exact hom.le
  · show 1.0 / r.ao * r.ao = 1
    rw [real_lits.2.1]; field_simp
  · show (r.ao * r.omeosq) * (r.ao * r.omeosq) = _
    rw [hro]; ring
  · show r.ao * (1.0 - o.ecco) = _
    rw [real_lits.2.1]
  · have h1 : r.ao = ((XKE : ℝ) / r.no) ^ (X2O3 : ℝ) := rfl
    have h2 : (X2O3 : ℝ) * 3 = 2 := by unfold X2O3; norm_num
    have h3 : r.ao ^ 3 = ((XKE : ℝ) / r.no) ^ 2 := by
      rw [h1, ← Real.rpow_natCast, ← Real.rpow_mul (div_pos hx hn).le]
      rw [show ((3:ℕ):ℝ) = 3 by norm_num, h2, Real.rpow_two]
    have hno : r.no ≠ 0 := ne_of_gt hn
    rw [h3, div_pow, div_mul_cancel₀ _ (pow_ne_zero 2 hno)]
  · show 0 ≤ (if o.opsmode = .A then gstoAfspc o.epoch else gstime (o.epoch + 2433281.5))
    split
    · exact (gstoAfspc_range _).1
    · exact (C36_range _).1
  · show (if o.opsmode = .A then gstoAfspc o.epoch else gstime (o.epoch + 2433281.5)) < 2 * Real.pi
    split
    · exact (gstoAfspc_range _).2
    · exact (C36_range _).2

/-! ## C54 -/

/-- **C54.** The constants fit together. -/
theorem C54_constants :
    |(XKE : ℝ) * TUMIN - 1| ≤ 1e-15 ∧ |(XKE : ℝ) ^ 2 * EARTH_RADIUS ^ 3 - 3600 * MU| ≤ 1e-14 * (3600 * MU) ∧
    (XPDOTP : ℝ) * (2 * Real.pi) = 1440 ∧ (MINUTES_PER_DAY : ℝ) = 24 * 60 ∧
    (DEG_2_RAD : ℝ) * RAD_TO_DEG = 1 ∧ (DEG_2_RAD : ℝ) * 360 = TWO_PI ∧
    (KM_TO_MI : ℝ) * MI_TO_KM = 1 ∧ (X2O3 : ℝ) * 3 = 2 ∧ (J3OJ2 : ℝ) * J2 = J3 := by
  have hpi := Real.pi_ne_zero
  refine ⟨?_, ?_, ?_, ?_, ?_, ?_, ?_, ?_, ?_⟩
  · unfold XKE TUMIN; rw [abs_le]; constructor <;> norm_num
  · unfold XKE EARTH_RADIUS MU; rw [abs_le]; constructor <;> norm_num
  · unfold XPDOTP; rw [real_pi, real_lits.2.2, div_mul_cancel₀ _ (by positivity)]; norm_num
  · unfold MINUTES_PER_DAY; norm_num
  · unfold DEG_2_RAD RAD_TO_DEG; rw [real_pi, show (180.0:ℝ) = 180 by norm_num]; field_simp
  · unfold DEG_2_RAD; rw [real_pi, real_TWO_PI, show (180.0:ℝ) = 180 by norm_num]; ring
  · unfold KM_TO_MI MI_TO_KM; norm_num
  · unfold X2O3; norm_num
  · unfold J3OJ2; rw [div_mul_cancel₀]; unfold J2; norm_num

end Sat
