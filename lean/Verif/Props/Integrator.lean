import Verif.Spec.Integrator
import Verif.Props.Deep
/-!
# C74: the resonance integrator is the published one, at every time, wherever it last stopped
-/

namespace Sat
open Spec

theorem sync_derivative (o : DspaceOptions ℝ) (x : ℝ) : HasDerivAt (syncRate o) (syncNddt o x) x := by
  have h1 := hasDerivAt_term o.del1 1 (-0.13130908) x
  have h2 := hasDerivAt_term o.del2 2 (-(2 * 2.8843198)) x
  have h3 := hasDerivAt_term o.del3 3 (-(3 * 0.37448087)) x
  refine (((h1.add h2).add h3).congr_of_eventuallyEq ?_).congr_deriv ?_
  · refine Filter.Eventually.of_forall fun y => ?_
    simp only [syncRate, Pi.add_apply]
    rw [show y - 0.13130908 = 1 * y + -0.13130908 by ring,
      show 2 * (y - 2.8843198) = 2 * y + -(2 * 2.8843198) by ring,
      show 3 * (y - 0.37448087) = 3 * y + -(3 * 0.37448087) by ring]
  · simp only [syncNddt, real_cos]
    rw [show (2.0:ℝ) = 2 by norm_num, show (3.0:ℝ) = 3 by norm_num,
      show x - 0.13130908 = 1 * x + -0.13130908 by ring,
      show 2 * (x - 2.8843198) = 2 * x + -(2 * 2.8843198) by ring,
      show 3 * (x - 0.37448087) = 3 * x + -(3 * 0.37448087) by ring]
    rw [one_mul (o.del1)]

/-- moving the perigee instead of the time -/
theorem half_shift (o : DspaceOptions ℝ) (x a : ℝ) :
    halfNdt o x a = halfNdt { o with argpo := o.argpo + o.argpdot * a } x 0.0 ∧
    halfNddt o x a = halfNddt { o with argpo := o.argpo + o.argpdot * a } x 0.0 := by
  have e : o.argpo + o.argpdot * a + o.argpdot * (0.0 : ℝ) = o.argpo + o.argpdot * a := by norm_num
  constructor
  · simp only [halfNdt, e]
  · simp only [halfNddt, e]

/-- the code's two derivative terms, at any state of the loop -/
theorem loop_rates (o : DspaceOptions ℝ) (a x : ℝ) :
    (if o.irez ==. (2.0:ℝ) then halfNdt o x a else syncNdt o x) = resRate o a x ∧
    (if o.irez ==. (2.0:ℝ) then halfNddt o x a else syncNddt o x) = resSlope o a x := by
  have e2 : (o.irez ==. (2.0:ℝ)) = true ↔ o.irez = 2 := by simp; norm_num
  unfold resRate resSlope
  by_cases hi : o.irez = 2
  · rw [if_pos (e2.mpr hi), if_pos (e2.mpr hi), if_pos hi, if_pos hi]
    obtain ⟨h1, h2⟩ := half_shift o x a
    have hd := halfDay_derivative { o with argpo := o.argpo + o.argpdot * a } x
    have hf : resRate o a = halfDayRate { o with argpo := o.argpo + o.argpdot * a } (o.argpo + o.argpdot * a) := by
      funext y; unfold resRate; rw [if_pos hi]; rfl
    refine ⟨by rw [h1, halfNdt_real]; rfl, ?_⟩
    rw [hf, hd.deriv, h2]
    exact (add_sub_cancel_right _ _).symm
  · rw [if_neg (fun h => hi (e2.mp h)), if_neg (fun h => hi (e2.mp h)), if_neg hi, if_neg hi, sub_zero]
    have hf : resRate o a = syncRate o := by funext y; unfold resRate; rw [if_neg hi]
    refine ⟨by rw [syncNdt_real], ?_⟩
    rw [hf, (sync_derivative o x).deriv]

/-- the point a loop state stands for -/
def point (st : DspaceSt ℝ) : ResPoint := ⟨st.atime, st.xli, st.xni⟩

theorem delt_real (o : DspaceOptions ℝ) : dspaceDelt o = if 0 < o.t then 720 else -720 := by
  unfold dspaceDelt; simp only [real_flt]
  rw [show (0.0:ℝ) = 0 by norm_num, show (720.0:ℝ) = 720 by norm_num]; simp

theorem step_far (o : DspaceOptions ℝ) (st : DspaceSt ℝ) (h : 720 ≤ |o.t - st.atime|) :
    point (dspaceBody o (dspaceDelt o) st) = resStep o (dspaceDelt o) (point st) ∧ (dspaceBody o (dspaceDelt o) st).iretn = 381 := by
  have hc : (Arith.abs (o.t - st.atime) ≥. 720.0) = true := by
    simp; rw [show (720.0:ℝ) = 720 by norm_num]; exact h
  have hsq : dspaceDelt o ^ 2 / 2 = 259200 := by
    rw [delt_real]; split <;> norm_num
  obtain ⟨r1, r2⟩ := loop_rates o st.atime st.xli
  unfold dspaceBody
  dsimp only
  rw [if_pos hc, r1, r2]
  refine ⟨?_, rfl⟩
  simp only [point, resStep, mul_div_assoc, hsq]
  rw [show (259200.0:ℝ) = 259200 by norm_num]
  congr 1 <;> ring

theorem step_near (o : DspaceOptions ℝ) (st : DspaceSt ℝ) (h : |o.t - st.atime| < 720) :
    dspaceBody o (dspaceDelt o) st = ⟨st.xli, st.xni, st.atime, resRate o st.atime st.xli, st.xni + o.xfact,
      resSlope o st.atime st.xli * (st.xni + o.xfact), o.t - st.atime, 0⟩ := by
  have hc : ¬ (Arith.abs (o.t - st.atime) ≥. 720.0) = true := by
    simp; rw [show (720.0:ℝ) = 720 by norm_num]; exact h
  obtain ⟨r1, r2⟩ := loop_rates o st.atime st.xli
  unfold dspaceBody
  dsimp only
  rw [if_neg hc, r1, r2]

/-- the loop entered `n` whole steps before `t` -/
theorem loop_points (o : DspaceOptions ℝ) (n : ℕ) :
    ∀ st : DspaceSt ℝ, st.iretn = 381 → (0 < o.t → 0 ≤ o.t - st.atime) → (¬ 0 < o.t → o.t - st.atime ≤ 0) →
      720 * (n : ℝ) ≤ |o.t - st.atime| → |o.t - st.atime| < 720 * (n + 1) →
      ∃ r, whileLoop (fun st => st.iretn == 381) (dspaceBody o (dspaceDelt o)) st = some r ∧
        point r = (resStep o (dspaceDelt o))^[n] (point st) ∧
        r.xndt = resRate o r.atime r.xli ∧ r.xldot = r.xni + o.xfact ∧
        r.xnddt = resSlope o r.atime r.xli * (r.xni + o.xfact) ∧ r.ft = o.t - r.atime := by
  induction n with
  | zero =>
    intro st hi _ _ _ h1
    have hb := step_near o st (by push_cast at h1; linarith)
    refine ⟨dspaceBody o (dspaceDelt o) st, ?_, ?_⟩
    · rw [whileLoop_true (by simp [hi]), whileLoop_false (by rw [hb]; rfl)]
    · rw [hb]; exact ⟨rfl, rfl, rfl, rfl, rfl⟩
  | succ n ih =>
    intro st hi hp hn h0 h1
    push_cast at h0 h1
    have hnn : (0:ℝ) ≤ n := Nat.cast_nonneg n
    obtain ⟨hb, hi'⟩ := step_far o st (by linarith)
    have ha : (dspaceBody o (dspaceDelt o) st).atime = st.atime + dspaceDelt o := congrArg ResPoint.time hb
    have hd := delt_real o
    have habs : |o.t - (st.atime + dspaceDelt o)| = |o.t - st.atime| - 720 ∧
        (0 < o.t → 0 ≤ o.t - (st.atime + dspaceDelt o)) ∧ (¬ 0 < o.t → o.t - (st.atime + dspaceDelt o) ≤ 0) := by
      by_cases ht : 0 < o.t
      · have hq := hp ht
        rw [abs_of_nonneg hq] at h0 h1 ⊢
        rw [hd, if_pos ht]
        refine ⟨?_, fun _ => by linarith, fun h => absurd ht h⟩
        rw [abs_of_nonneg (by linarith)]; ring
      · have hq := hn ht
        rw [abs_of_nonpos hq] at h0 h1 ⊢
        rw [hd, if_neg ht]
        refine ⟨?_, fun h => absurd h ht, fun _ => by linarith⟩
        rw [abs_of_nonpos (by linarith)]; ring
    obtain ⟨r, hr, hpt, hrest⟩ := ih (dspaceBody o (dspaceDelt o) st) hi' (by rw [ha]; exact habs.2.1) (by rw [ha]; exact habs.2.2)
      (by rw [ha, habs.1]; linarith) (by rw [ha, habs.1]; linarith)
    refine ⟨r, ?_, ?_, hrest⟩
    · rw [whileLoop_true (by simp [hi])]; exact hr
    · rw [hpt, hb, Function.iterate_succ_apply]

theorem grid_time (o : DspaceOptions ℝ) (h : ℝ) (n : ℕ) (p : ResPoint) : ((resStep o h)^[n] p).time = p.time + n * h := by
  induction n generalizing p with
  | zero => simp
  | succ n ih => rw [Function.iterate_succ_apply, ih]; simp only [resStep]; push_cast; ring

/-- **C74**, the loop: entered at epoch, or where an earlier call for time `t₀` left it, it ends at the grid point of `t`. -/
theorem C74_loop (o : DspaceOptions ℝ) (h : o.atime = 0 ∨ ∃ t₀, ResPoint.mk o.atime o.xli o.xni = resGrid o t₀) :
    ∃ r, dspaceLoop o = some r ∧ point r = resGrid o o.t ∧
        r.xndt = resRate o r.atime r.xli ∧ r.xldot = r.xni + o.xfact ∧
        r.xnddt = resSlope o r.atime r.xli * (r.xni + o.xfact) ∧ r.ft = o.t - r.atime := by
  have e0 : (0.0:ℝ) = 0 := by norm_num
  have hf1 := Nat.floor_le (show (0:ℝ) ≤ |o.t| / 720 by positivity)
  have hf2 := Nat.lt_floor_add_one (|o.t| / 720)
  rw [le_div_iff₀ (by norm_num)] at hf1
  rw [div_lt_iff₀ (by norm_num)] at hf2
  unfold dspaceLoop
  by_cases hc : ((o.atime ==. (0.0:ℝ)) || (o.t * o.atime ≤. (0.0:ℝ)) || (Arith.abs o.t <. Arith.abs o.atime)) = true
  · have hst : dspaceStart o = ⟨o.xlamo, o.no, 0.0, 0.0, 0.0, 0.0, 0.0, 381⟩ := by
      unfold dspaceStart; rw [if_pos hc]
    obtain ⟨r, h1, h2, h3⟩ := loop_points o ⌊|o.t| / 720⌋₊ (dspaceStart o) (by rw [hst]) (fun h => by rw [hst]; dsimp only; rw [e0]; linarith)
      (fun h => by rw [hst]; dsimp only; rw [e0]; linarith) (by rw [hst]; dsimp only; rw [e0, sub_zero]; linarith)
      (by rw [hst]; dsimp only; rw [e0, sub_zero]; linarith)
    refine ⟨r, h1, ?_, h3⟩
    rw [h2, hst, resGrid, delt_real]
    simp only [point, e0]
  · have hst : dspaceStart o = ⟨o.xli, o.xni, o.atime, 0.0, 0.0, 0.0, 0.0, 381⟩ := by
      unfold dspaceStart; rw [if_neg hc]
    simp only [Bool.not_eq_true, Bool.or_eq_false_iff, real_feq, real_fle, real_flt, real_abs, e0,
      decide_eq_false_iff_not, not_le, not_lt] at hc
    obtain ⟨⟨c0, c1⟩, c2⟩ := hc
    rcases h with h | ⟨t₀, h⟩
    · exact absurd h c0
    · have hat : o.atime = ⌊|t₀| / 720⌋₊ * (if 0 < t₀ then 720 else -720) := by
        have := congrArg ResPoint.time h
        rw [resGrid, grid_time] at this
        simpa using this
      set k := ⌊|t₀| / 720⌋₊ with hk
      have hk0 : (0:ℝ) ≤ k := Nat.cast_nonneg k
      have hsgn : (0 < t₀ ↔ 0 < o.t) ∧ |o.atime| = 720 * k ∧ |o.t - o.atime| = |o.t| - 720 * k ∧
          (0 < o.t → 0 ≤ o.t - o.atime) ∧ (¬ 0 < o.t → o.t - o.atime ≤ 0) := by
        by_cases ht0 : 0 < t₀
        · rw [if_pos ht0] at hat
          have hpos : 0 < o.atime := lt_of_le_of_ne (by rw [hat]; positivity) (Ne.symm c0)
          have ht : 0 < o.t := by
            by_contra hn
            have := mul_nonpos_of_nonpos_of_nonneg (not_lt.mp hn) hpos.le; linarith
          rw [abs_of_pos ht, abs_of_pos hpos] at c2
          refine ⟨⟨fun _ => ht, fun _ => ht0⟩, by rw [abs_of_pos hpos, hat]; ring, ?_, fun _ => by linarith, fun h => absurd ht h⟩
          rw [abs_of_nonneg (by linarith), abs_of_pos ht, hat]; ring
        · rw [if_neg ht0] at hat
          have hneg : o.atime < 0 := lt_of_le_of_ne (by rw [hat]; nlinarith) c0
          have ht : o.t < 0 := by
            by_contra hn
            have := mul_nonpos_of_nonneg_of_nonpos (not_lt.mp hn) hneg.le; linarith
          rw [abs_of_neg ht, abs_of_neg hneg] at c2
          refine ⟨⟨fun h => absurd h ht0, fun h => absurd h (by linarith)⟩, by rw [abs_of_neg hneg, hat]; ring, ?_,
            fun h => absurd h (by linarith), fun _ => by linarith⟩
          rw [abs_of_nonpos (by linarith), abs_of_neg ht, hat]; ring
      obtain ⟨hs1, hs2, hs3, hs4, hs5⟩ := hsgn
      have hkn : k ≤ ⌊|o.t| / 720⌋₊ := by
        apply Nat.le_floor
        rw [le_div_iff₀ (by norm_num)]
        linarith
      obtain ⟨d, hd⟩ := Nat.exists_eq_add_of_le hkn
      rw [hd] at hf1 hf2
      push_cast at hf1 hf2
      obtain ⟨r, h1, h2, h3⟩ := loop_points o d (dspaceStart o) (by rw [hst]) (fun h => by rw [hst]; exact hs4 h) (fun h => by rw [hst]; exact hs5 h)
        (by rw [hst]; dsimp only; rw [hs3]; linarith) (by rw [hst]; dsimp only; rw [hs3]; linarith)
      refine ⟨r, h1, ?_, h3⟩
      rw [h2, hst]
      have hp : point ⟨o.xli, o.xni, o.atime, 0.0, 0.0, 0.0, 0.0, 381⟩ = resGrid o t₀ := h
      rw [hp, resGrid, resGrid, delt_real, hd, ← hk, add_comm k d, Function.iterate_add_apply]
      simp only [hs1]

/-- **C74.** For every resonant orbit and every time the integrator returns the mean motion and the mean anomaly of the published
scheme, and leaves its state at the grid point; whether it starts at epoch or where an earlier call, for any time `t₀`, left it. -/
theorem C74_integrator (o : DspaceOptions ℝ) (hi : o.irez = 1 ∨ o.irez = 2)
    (h : o.atime = 0 ∨ ∃ t₀, ResPoint.mk o.atime o.xli o.xni = resGrid o t₀) :
    ∃ r θ, dspace o = some r ∧ SameAngle θ (o.gsto + o.tc * 4.37526908801129966e-3) ∧
      r.nm = (resAt o o.t).n ∧ r.dndt = (resAt o o.t).n - o.no ∧
      r.mm = (if o.irez = 1 then (resAt o o.t).lam - r.nodem - r.argpm + θ else (resAt o o.t).lam - 2 * r.nodem + 2 * θ) ∧
      ResPoint.mk r.atime r.xli r.xni = resGrid o o.t ∧ (resGrid o o.t).time = gridPoint o.t := by
  have e0 : (0.0:ℝ) = 0 := by norm_num
  have e1 : (1.0:ℝ) = 1 := by norm_num
  obtain ⟨st, hl, hp, h1, h2, h3, h4⟩ := C74_loop o h
  have hz : ¬ (o.irez ==. (0.0:ℝ)) = true := by
    rw [e0]; rcases hi with hi | hi <;> rw [hi] <;> simp
  have hone : (o.irez ==. (1.0:ℝ)) = true ↔ o.irez = 1 := by rw [e1]; simp
  have htp : (TWO_PI : ℝ) = 2 * Real.pi := by unfold TWO_PI; rw [real_pi]; norm_num; ring
  have hsame : SameAngle (remR (o.gsto + o.tc * 4.37526908801129966e-3) TWO_PI) (o.gsto + o.tc * 4.37526908801129966e-3) := by
    obtain ⟨k, hk⟩ := remR_congr (o.gsto + o.tc * 4.37526908801129966e-3) TWO_PI
    exact ⟨-k, by rw [hk, htp]; push_cast; ring⟩
  have hpt : st.atime = (resGrid o o.t).time ∧ st.xli = (resGrid o o.t).lam ∧ st.xni = (resGrid o o.t).n := by
    rw [← hp]; exact ⟨rfl, rfl, rfl⟩
  obtain ⟨p1, p2, p3⟩ := hpt
  have hgt : (resGrid o o.t).time = gridPoint o.t := by
    rw [resGrid, grid_time, gridPoint]
    by_cases ht : 0 < o.t
    · rw [if_pos ht, if_pos ht, abs_of_pos ht]; ring
    · rw [if_neg ht, if_neg ht, abs_of_nonpos (not_lt.mp ht)]; ring
  have hd : dspace o = some
      { atime := st.atime, em := o.em + o.dedt * o.t, argpm := o.argpm + o.domdt * o.t, inclm := o.inclm + o.didt * o.t, xli := st.xli,
        mm := if o.irez ==. (1.0:ℝ) then (st.xli + (st.xldot * st.ft) + (st.xndt * st.ft * st.ft * 0.5) - (o.nodem + o.dnodt * o.t) -
            (o.argpm + o.domdt * o.t)) + remR (o.gsto + o.tc * 4.37526908801129966e-3) TWO_PI
          else (st.xli + (st.xldot * st.ft) + (st.xndt * st.ft * st.ft * 0.5) - (2.0 * (o.nodem + o.dnodt * o.t))) +
            (2.0 * remR (o.gsto + o.tc * 4.37526908801129966e-3) TWO_PI)
        xni := st.xni, nodem := o.nodem + o.dnodt * o.t
        dndt := st.xni + (st.xndt * st.ft) + (st.xnddt * st.ft * st.ft * 0.5) - o.no
        nm := o.no + (st.xni + (st.xndt * st.ft) + (st.xnddt * st.ft * st.ft * 0.5) - o.no) } := by
    unfold dspace
    dsimp only
    rw [if_neg hz, hl]
    rfl
  have hn : st.xni + (st.xndt * st.ft) + (st.xnddt * st.ft * st.ft * 0.5) = (resAt o o.t).n := by
    simp only [resAt, resStep]
    rw [h1, h3, h4, p1, p2, p3, show (0.5:ℝ) = 1 / 2 by norm_num]; ring
  have hlam : st.xli + (st.xldot * st.ft) + (st.xndt * st.ft * st.ft * 0.5) = (resAt o o.t).lam := by
    simp only [resAt, resStep]
    rw [h1, h2, h4, p1, p2, p3, show (0.5:ℝ) = 1 / 2 by norm_num]; ring
  refine ⟨_, remR (o.gsto + o.tc * 4.37526908801129966e-3) TWO_PI, hd, hsame, ?_, ?_, ?_, hp, hgt⟩
  · dsimp only; rw [hn]; ring
  · dsimp only; rw [hn]
  · dsimp only; rw [hlam, show (2.0:ℝ) = 2 by norm_num]
    by_cases h1' : o.irez = 1
    · rw [if_pos (hone.mpr h1'), if_pos h1']
    · rw [if_neg (fun h => h1' (hone.mp h)), if_neg h1']

/-- **C74.** Hence the result never depends on where an earlier call left the integrator. -/
theorem C74_restart (o : DspaceOptions ℝ) (hi : o.irez = 1 ∨ o.irez = 2) (t₀ : ℝ)
    (h : ResPoint.mk o.atime o.xli o.xni = resGrid o t₀) :
    dspace o = dspace { o with atime := 0, xli := o.xlamo, xni := o.no } := by
  obtain ⟨a, ha, a1, a2⟩ := C74_loop o (Or.inr ⟨t₀, h⟩)
  obtain ⟨b, hb, b1, b2⟩ := C74_loop { o with atime := 0, xli := o.xlamo, xni := o.no } (Or.inl rfl)
  have hz : ¬ (o.irez ==. (0.0:ℝ)) = true := by
    rw [show (0.0:ℝ) = 0 by norm_num]; rcases hi with hi | hi <;> rw [hi] <;> simp
  have hpt : point a = point b := a1.trans b1.symm
  have e1 : a.atime = b.atime := congrArg ResPoint.time hpt
  have e2 : a.xli = b.xli := congrArg ResPoint.lam hpt
  have e3 : a.xni = b.xni := congrArg ResPoint.n hpt
  have f1 : a.xndt = b.xndt := by rw [a2.1, b2.1, e1, e2]; rfl
  have f2 : a.xldot = b.xldot := by rw [a2.2.1, b2.2.1, e3]
  have f3 : a.xnddt = b.xnddt := by rw [a2.2.2.1, b2.2.2.1, e1, e2, e3]; rfl
  have f4 : a.ft = b.ft := by rw [a2.2.2.2, b2.2.2.2, e1]
  unfold dspace
  dsimp only
  rw [if_neg hz, if_neg hz, ha, hb]
  dsimp only
  rw [e1, e2, e3, f1, f2, f3, f4]

/-- A one-day resonant orbit called for two days, then for three: the state left by the first call meets the hypothesis. -/
example : ∃ o : DspaceOptions ℝ, o.irez = 1 ∧ o.t = 4320 ∧ o.atime = 2880 ∧ ResPoint.mk o.atime o.xli o.xni = resGrid o 2880 := by
  have hfl : ⌊|(2880:ℝ)| / 720⌋₊ = 4 := by
    rw [abs_of_pos (by norm_num), show (2880:ℝ) / 720 = (4:ℕ) by norm_num, Nat.floor_natCast]
  refine ⟨{ plainOptions 1 0 0.0043 1 4320 with
    atime := 2880
    xli := (resGrid (plainOptions 1 0 0.0043 1 4320) 2880).lam
    xni := (resGrid (plainOptions 1 0 0.0043 1 4320) 2880).n }, rfl, rfl, rfl, ?_⟩
  have ht : (resGrid (plainOptions 1 0 0.0043 1 4320) 2880).time = 2880 := by
    rw [resGrid, grid_time, hfl, if_pos (by norm_num)]; norm_num
  show ResPoint.mk 2880 (resGrid (plainOptions 1 0 0.0043 1 4320) 2880).lam (resGrid (plainOptions 1 0 0.0043 1 4320) 2880).n =
    resGrid (plainOptions 1 0 0.0043 1 4320) 2880
  generalize resGrid (plainOptions 1 0 0.0043 1 4320) 2880 = p at ht ⊢
  rw [← ht]

end Sat
