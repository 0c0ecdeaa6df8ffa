import Verif.Spec.DeepSpec
import Verif.Model.Dsinit
import Verif.Model.Dpper
import Verif.Model.Initl
import Verif.Props.Propagate
import Verif.Props.Time
import Mathlib.Analysis.SpecialFunctions.Trigonometric.Deriv
/-!
# Deep space over the reals: C09, C49, C50, C51, C52, C53, C54
-/

set_option linter.unusedSimpArgs false

namespace Sat
open Spec

/-! ## C08, the real instance -/

/-- **C08.** Over the reals the Kepler iteration makes at least one pass. -/
theorem C08_kepler_once_real (u ax ay : ℝ) :
    ∃ n, 1 ≤ n ∧ n ≤ 10 ∧ kepler u ax ay = some (iterate (keplerBody u ax ay) n (keplerStart u)) :=
  C08_kepler_once u ax ay (by simp; rw [le_abs]; left; norm_num)

/-! ## C09 -/

/-- the integrator loop entered at `a` on the epoch side of `t`, `n` grid steps away -/
theorem dspace_passes (o : DspaceOptions ℝ) (n : ℕ) :
    ∀ st : DspaceSt ℝ, st.iretn = 381 → (0 < o.t → 0 ≤ o.t - st.atime) → (¬ 0 < o.t → o.t - st.atime ≤ 0) →
      (n : ℝ) ≤ |o.t - st.atime| / 720 → |o.t - st.atime| / 720 < n + 1 →
      ∃ r, whileLoop (fun st => st.iretn == 381) (dspaceBody o (dspaceDelt o)) st = some r ∧
        r = iterate (dspaceBody o (dspaceDelt o)) (n + 1) st ∧
        r.atime = st.atime + n * (if 0 < o.t then 720 else -720) := by
  induction n with
  | zero =>
    intro st hi _ _ h0 h1
    have h1' : |o.t - st.atime| < 720 := by
      have := (div_lt_iff₀ (by norm_num : (0:ℝ) < 720)).mp h1
      push_cast at this; linarith
    have hb : dspaceBody o (dspaceDelt o) st = { dspaceBody o (dspaceDelt o) st with atime := st.atime, iretn := 0 } := by
      have hc : ¬ (Arith.abs (o.t - st.atime) ≥. 720.0) = true := by
        simp; rw [show (720.0:ℝ) = 720 by norm_num]; exact h1'
      simp only [dspaceBody, if_neg hc]
    refine ⟨_, ?_, rfl, ?_⟩
    · rw [whileLoop_true (by simp [hi]), whileLoop_false (by rw [hb]; rfl)]; rfl
    · rw [iterate, iterate, hb]; simp
  | succ n ih =>
    intro st hi hp hn h0 h1
    have h0' : 720 * ((n : ℝ) + 1) ≤ |o.t - st.atime| := by
      have := (le_div_iff₀ (by norm_num : (0:ℝ) < 720)).mp h0
      push_cast at this; linarith
    have h1' : |o.t - st.atime| < 720 * ((n : ℝ) + 2) := by
      have := (div_lt_iff₀ (by norm_num : (0:ℝ) < 720)).mp h1
      push_cast at this; linarith
    have hc : (Arith.abs (o.t - st.atime) ≥. 720.0) = true := by
      simp; rw [show (720.0:ℝ) = 720 by norm_num]
      have : (0:ℝ) ≤ n := Nat.cast_nonneg n
      linarith
    have hb : (dspaceBody o (dspaceDelt o) st).atime = st.atime + dspaceDelt o ∧
        (dspaceBody o (dspaceDelt o) st).iretn = 381 := by
      unfold dspaceBody; dsimp only; rw [if_pos hc]; exact ⟨rfl, rfl⟩
    have hd : dspaceDelt o = if 0 < o.t then 720 else -720 := by
      unfold dspaceDelt; simp only [real_flt]
      rw [show (0.0:ℝ) = 0 by norm_num, show (720.0:ℝ) = 720 by norm_num]; simp
    have hnn : (0:ℝ) ≤ n := Nat.cast_nonneg n
    have habs : |o.t - (st.atime + dspaceDelt o)| = |o.t - st.atime| - 720 ∧
        (0 < o.t → 0 ≤ o.t - (st.atime + dspaceDelt o)) ∧ (¬ 0 < o.t → o.t - (st.atime + dspaceDelt o) ≤ 0) := by
      by_cases ht : 0 < o.t
      · have hq := hp ht
        rw [abs_of_nonneg hq] at h0' h1' ⊢
        rw [hd, if_pos ht]
        refine ⟨?_, fun _ => by linarith, fun h => absurd ht h⟩
        rw [abs_of_nonneg (by linarith)]; ring
      · have hq := hn ht
        rw [abs_of_nonpos hq] at h0' h1' ⊢
        rw [hd, if_neg ht]
        refine ⟨?_, fun h => absurd h ht, fun _ => by linarith⟩
        rw [abs_of_nonpos (by linarith)]; ring
    obtain ⟨r, hr, hri, hra⟩ := ih (dspaceBody o (dspaceDelt o) st) hb.2
      (by rw [hb.1]; exact habs.2.1) (by rw [hb.1]; exact habs.2.2)
      (by rw [hb.1, habs.1, le_div_iff₀ (by norm_num)]; linarith)
      (by rw [hb.1, habs.1, div_lt_iff₀ (by norm_num)]; linarith)
    refine ⟨r, ?_, ?_, ?_⟩
    · rw [whileLoop_true (by simp [hi])]; exact hr
    · rw [hri]; rfl
    · rw [hra, hb.1, hd]; push_cast; ring

/-- **C09.** Whatever the record contains, the resonance integrator leaves its loop for every time `t`; entered with the
integrator at epoch (the state left by initialisation) it makes `⌊|t|/720⌋` integration steps and one closing pass. -/
theorem C09_loop_terminates (o : DspaceOptions ℝ) :
    (∃ st, dspaceLoop o = some st ∧ |o.t - st.atime| < 720) ∧
    (o.atime = 0 → ∃ st, dspaceLoop o = some st ∧ st.atime = gridPoint o.t ∧
      st = iterate (dspaceBody o (dspaceDelt o)) (⌊|o.t| / 720⌋₊ + 1) (dspaceStart o)) := by
  have hstart : (dspaceStart o).iretn = 381 ∧ (0 < o.t → 0 ≤ o.t - (dspaceStart o).atime) ∧
      (¬ 0 < o.t → o.t - (dspaceStart o).atime ≤ 0) := by
    unfold dspaceStart
    have e0 : (0.0:ℝ) = 0 := by norm_num
    split
    · refine ⟨rfl, fun h => ?_, fun h => ?_⟩ <;> dsimp only <;> rw [e0] <;> linarith
    · rename_i hc
      simp only [Bool.not_eq_true, Bool.or_eq_false_iff, real_feq, real_fle, real_flt, real_abs, e0,
        decide_eq_false_iff_not, not_le, not_lt] at hc
      obtain ⟨⟨h0, h1⟩, h2⟩ := hc
      refine ⟨rfl, fun h => ?_, fun h => ?_⟩ <;> dsimp only
      · have ha : 0 < o.atime := by
          by_contra hna
          have := mul_nonpos_of_nonneg_of_nonpos h.le (not_lt.mp hna); linarith
        rw [abs_of_pos h, abs_of_pos ha] at h2; linarith
      · have h' := not_lt.mp h
        have ht : o.t < 0 := lt_of_le_of_ne h' (fun hh => by rw [hh] at h1; simp at h1)
        have ha : o.atime < 0 := by
          by_contra hna
          have := mul_nonpos_of_nonpos_of_nonneg h' (not_lt.mp hna); linarith
        rw [abs_of_neg ht, abs_of_neg ha] at h2; linarith
  obtain ⟨r, hr, hri, hra⟩ := dspace_passes o ⌊|o.t - (dspaceStart o).atime| / 720⌋₊ (dspaceStart o) hstart.1 hstart.2.1
    hstart.2.2 (Nat.floor_le (by positivity)) (Nat.lt_floor_add_one _)
  have hfl := Nat.floor_le (show 0 ≤ |o.t - (dspaceStart o).atime| / 720 by positivity)
  have hfu := Nat.lt_floor_add_one (|o.t - (dspaceStart o).atime| / 720)
  rw [le_div_iff₀ (by norm_num)] at hfl
  rw [div_lt_iff₀ (by norm_num)] at hfu
  refine ⟨⟨r, hr, ?_⟩, fun h0 => ⟨r, hr, ?_, ?_⟩⟩
  · rw [hra]
    by_cases ht : 0 < o.t
    · have := hstart.2.1 ht
      rw [if_pos ht, abs_lt]; rw [abs_of_nonneg this] at hfl hfu ⊢
      constructor <;> linarith
    · have := hstart.2.2 ht
      rw [if_neg ht, abs_lt]; rw [abs_of_nonpos this] at hfl hfu ⊢
      constructor <;> linarith
  · have ha : (dspaceStart o).atime = 0 := by
      unfold dspaceStart
      rw [if_pos (by simp; left; left; rw [h0]; norm_num)]
      dsimp only; norm_num
    rw [hra, ha, gridPoint]
    by_cases ht : 0 < o.t
    · rw [if_pos ht, if_pos ht, sub_zero, abs_of_pos ht]; ring
    · rw [if_neg ht, if_neg ht, sub_zero, abs_of_nonpos (not_lt.mp ht)]; ring
  · have ha : (dspaceStart o).atime = 0 := by
      unfold dspaceStart
      rw [if_pos (by simp; left; left; rw [h0]; norm_num)]
      dsimp only; norm_num
    rw [hri, ha, sub_zero]

/-- **C09.** `dspace` returns for every option record; a resonant orbit whose integrator is at epoch is left at the grid
point of `t`. -/
theorem C09_dspace_returns (o : DspaceOptions ℝ) :
    ∃ r, dspace o = some r ∧ (o.irez ≠ 0 → o.atime = 0 → r.atime = gridPoint o.t) := by
  have e0 : (0.0:ℝ) = 0 := by norm_num
  unfold dspace
  dsimp only
  by_cases hz : (o.irez ==. (0.0:ℝ)) = true
  · rw [if_pos hz]
    refine ⟨_, rfl, fun h => absurd ?_ h⟩
    simpa [e0] using hz
  · rw [if_neg hz]
    obtain ⟨⟨st, hst, -⟩, h2⟩ := C09_loop_terminates o
    rw [hst]
    refine ⟨_, rfl, fun _ h0 => ?_⟩
    obtain ⟨st', hst', h3, -⟩ := h2 h0
    rw [hst] at hst'
    cases hst'
    exact h3

/-- **C09.** `sgp4` returns for every record, near-earth or deep-space, and every time. -/
theorem C09_sgp4_returns (s : Satrec ℝ) (t : ℝ) : ∃ s' r, sgp4 s t = some (s', r) := by
  have h := sgp4_refines s t (fun hD => by
    obtain ⟨r, hr, -⟩ := C09_dspace_returns (dspaceOptions (atTime s t) (secular (atTime s t)))
    exact ⟨r, hr⟩)
  cases hs : sgp4 s t with
  | none => rw [hs] at h; cases h
  | some o => exact ⟨o.1, o.2, rfl⟩

/-! ## C50 -/

/-- inside the first grid cell, the loop is a single closing pass from the epoch state -/
theorem dspaceLoop_short (o : DspaceOptions ℝ) (h0 : o.atime = 0) (ht : |o.t| < 720) :
    dspaceLoop o = some ⟨o.xlamo, o.no, 0.0,
      if o.irez ==. (2.0:ℝ) then halfNdt o o.xlamo 0.0 else syncNdt o o.xlamo, o.no + o.xfact,
      (if o.irez ==. (2.0:ℝ) then halfNddt o o.xlamo 0.0 else syncNddt o o.xlamo) * (o.no + o.xfact),
      o.t - 0.0, 0⟩ := by
  have hs : dspaceStart o = ⟨o.xlamo, o.no, 0.0, 0.0, 0.0, 0.0, 0.0, 381⟩ := by
    unfold dspaceStart
    rw [if_pos (by simp; left; left; rw [h0]; norm_num)]
  have hc : ¬ (Arith.abs (o.t - (0.0:ℝ)) ≥. 720.0) = true := by
    simp; rw [show (720.0:ℝ) = 720 by norm_num, show (0.0:ℝ) = 0 by norm_num, sub_zero]; exact ht
  unfold dspaceLoop
  rw [hs, whileLoop_true (by rfl)]
  simp only [dspaceBody, if_neg hc]
  exact whileLoop_false rfl

theorem syncNdt_real (o : DspaceOptions ℝ) : syncNdt o = syncRate o := by
  funext x
  simp only [syncNdt, syncRate, real_sin]
  norm_num

theorem halfNdt_real (o : DspaceOptions ℝ) (x : ℝ) : halfNdt o x 0.0 = halfDayRate o o.argpo x := by
  simp only [halfNdt, halfDayRate, real_sin]
  rw [show (0.0:ℝ) = 0 by norm_num]
  have e : ∀ G : ℝ, (o.argpo + o.argpdot * 0 + (o.argpo + o.argpdot * 0) + x - G = x + 2 * o.argpo - G) ∧
      (o.argpo + o.argpdot * 0 + x - G = x + o.argpo - G) ∧ (-(o.argpo + o.argpdot * 0) + x - G = x - o.argpo - G) ∧
      (o.argpo + o.argpdot * 0 + (o.argpo + o.argpdot * 0) + (x + x) - G = 2 * x + 2 * o.argpo - G) ∧
      (x + x - G = 2 * x - G) ∧ (o.argpo + o.argpdot * 0 + (x + x) - G = 2 * x + o.argpo - G) ∧
      (-(o.argpo + o.argpdot * 0) + (x + x) - G = 2 * x - o.argpo - G) := by
    intro G; refine ⟨?_, ?_, ?_, ?_, ?_, ?_, ?_⟩ <;> ring
  simp only [(e _).1, (e _).2.1, (e _).2.2.1, (e _).2.2.2.1, (e _).2.2.2.2.1, (e _).2.2.2.2.2.1, (e _).2.2.2.2.2.2]

/-- derivative of one sine term -/
theorem hasDerivAt_term (d m c x : ℝ) : HasDerivAt (fun y => d * Real.sin (m * y + c)) (m * d * Real.cos (m * x + c)) x := by
  have h1 : HasDerivAt (fun y => m * y + c) m x := by
    simpa using ((hasDerivAt_id x).const_mul m).add_const c
  exact ((h1.sin).const_mul d).congr_deriv (by ring)

/-- **C50.** Synchronous resonance, any coefficients, `|t| < 720`: the mean motion returned is the second-order Taylor
expansion whose second derivative really is (derivative of the rate) times (longitude rate). -/
theorem C50_synchronous (o : DspaceOptions ℝ) (hi : o.irez = 1) (h0 : o.atime = 0) (ht : |o.t| < 720) :
    ∃ r d, dspace o = some r ∧ HasDerivAt (syncRate o) d o.xlamo ∧
      r.nm = o.no + syncRate o o.xlamo * o.t + d * (o.no + o.xfact) * o.t ^ 2 / 2 := by
  have e0 : (0.0:ℝ) = 0 := by norm_num
  have hz : ¬ (o.irez ==. (0.0:ℝ)) = true := by rw [hi]; simp [e0]
  have hz2 : ¬ (o.irez ==. (2.0:ℝ)) = true := by rw [hi]; simp; norm_num
  have hd : ∃ r, dspace o = some r ∧ r.nm = o.no + syncRate o o.xlamo * o.t
      + syncNddt o o.xlamo * (o.no + o.xfact) * o.t ^ 2 / 2 := by
    unfold dspace
    dsimp only
    rw [if_neg hz, dspaceLoop_short o h0 ht]
    refine ⟨_, rfl, ?_⟩
    dsimp only
    rw [if_neg hz2, if_neg hz2, syncNdt_real, e0, show (0.5:ℝ) = 1 / 2 by norm_num]
    ring
  obtain ⟨r, hr, hnm⟩ := hd
  refine ⟨r, syncNddt o o.xlamo, hr, ?_, hnm⟩
  · have h1 := hasDerivAt_term o.del1 1 (-0.13130908) o.xlamo
    have h2 := hasDerivAt_term o.del2 2 (-(2 * 2.8843198)) o.xlamo
    have h3 := hasDerivAt_term o.del3 3 (-(3 * 0.37448087)) o.xlamo
    have := ((h1.add h2).add h3)
    refine (this.congr_of_eventuallyEq ?_).congr_deriv ?_
    · refine Filter.Eventually.of_forall fun y => ?_
      simp only [syncRate, Pi.add_apply]
      rw [show y - 0.13130908 = 1 * y + -0.13130908 by ring,
        show 2 * (y - 2.8843198) = 2 * y + -(2 * 2.8843198) by ring,
        show 3 * (y - 0.37448087) = 3 * y + -(3 * 0.37448087) by ring]
    · simp only [syncNddt, real_cos]
      rw [show (2.0:ℝ) = 2 by norm_num, show (3.0:ℝ) = 3 by norm_num,
        show o.xlamo - 0.13130908 = 1 * o.xlamo + -0.13130908 by ring,
        show 2 * (o.xlamo - 2.8843198) = 2 * o.xlamo + -(2 * 2.8843198) by ring,
        show 3 * (o.xlamo - 0.37448087) = 3 * o.xlamo + -(3 * 0.37448087) by ring]
      rw [one_mul (o.del1)]

/-- the derivative of the half-day rate is what the code computes plus what it leaves out -/
theorem halfDay_derivative (o : DspaceOptions ℝ) (x : ℝ) :
    HasDerivAt (halfDayRate o o.argpo) (halfNddt o x 0.0 + halfDayMissing o o.argpo x) x := by
  have t := fun d m c => hasDerivAt_term d m c x
  have := (((((((((t o.d2201 1 (2 * o.argpo - 5.7686396)).add (t o.d2211 1 (-5.7686396))).add
    (t o.d3210 1 (o.argpo - 0.95240898))).add (t o.d3222 1 (-o.argpo - 0.95240898))).add
    (t o.d4410 2 (2 * o.argpo - 1.8014998))).add (t o.d4422 2 (-1.8014998))).add
    (t o.d5220 1 (o.argpo - 1.0508330))).add (t o.d5232 1 (-o.argpo - 1.0508330))).add
    (t o.d5421 2 (o.argpo - 4.4108898))).add (t o.d5433 2 (-o.argpo - 4.4108898))
  have e : ∀ (y G : ℝ), (1 * y + (2 * o.argpo - G) = y + 2 * o.argpo - G) ∧ (1 * y + -G = y - G) ∧
      (1 * y + (o.argpo - G) = y + o.argpo - G) ∧ (1 * y + (-o.argpo - G) = y - o.argpo - G) ∧
      (2 * y + (2 * o.argpo - G) = 2 * y + 2 * o.argpo - G) ∧ (2 * y + -G = 2 * y - G) ∧
      (2 * y + (o.argpo - G) = 2 * y + o.argpo - G) ∧ (2 * y + (-o.argpo - G) = 2 * y - o.argpo - G) := by
    intro y G; refine ⟨?_, ?_, ?_, ?_, ?_, ?_, ?_, ?_⟩ <;> ring
  have e' : ∀ G : ℝ, (o.argpo + o.argpdot * 0 + (o.argpo + o.argpdot * 0) + x - G = x + 2 * o.argpo - G) ∧
      (o.argpo + o.argpdot * 0 + x - G = x + o.argpo - G) ∧ (-(o.argpo + o.argpdot * 0) + x - G = x - o.argpo - G) ∧
      (o.argpo + o.argpdot * 0 + (o.argpo + o.argpdot * 0) + (x + x) - G = 2 * x + 2 * o.argpo - G) ∧
      (x + x - G = 2 * x - G) ∧ (o.argpo + o.argpdot * 0 + (x + x) - G = 2 * x + o.argpo - G) ∧
      (-(o.argpo + o.argpdot * 0) + (x + x) - G = 2 * x - o.argpo - G) := by
    intro G; refine ⟨?_, ?_, ?_, ?_, ?_, ?_, ?_⟩ <;> ring
  refine (this.congr_of_eventuallyEq ?_).congr_deriv ?_
  · refine Filter.Eventually.of_forall fun y => ?_
    simp only [halfDayRate, Pi.add_apply, (e _ _).1, (e _ _).2.1, (e _ _).2.2.1, (e _ _).2.2.2.1, (e _ _).2.2.2.2.1,
      (e _ _).2.2.2.2.2.1, (e _ _).2.2.2.2.2.2.1, (e _ _).2.2.2.2.2.2.2]
  · simp only [halfNddt, halfDayMissing, real_cos, (e _ _).1, (e _ _).2.1, (e _ _).2.2.1, (e _ _).2.2.2.1,
      (e _ _).2.2.2.2.1, (e _ _).2.2.2.2.2.1, (e _ _).2.2.2.2.2.2.1, (e _ _).2.2.2.2.2.2.2]
    rw [show (0.0:ℝ) = 0 by norm_num, show (2.0:ℝ) = 2 by norm_num]
    simp only [(e' _).1, (e' _).2.1, (e' _).2.2.1, (e' _).2.2.2.1, (e' _).2.2.2.2.1, (e' _).2.2.2.2.2.1,
      (e' _).2.2.2.2.2.2]
    generalize Real.cos _ = c1
    generalize Real.cos _ = c2
    generalize Real.cos _ = c3
    generalize Real.cos _ = c4
    generalize Real.cos _ = c5
    generalize Real.cos _ = c6
    generalize Real.cos _ = c7
    generalize Real.cos _ = c8
    generalize Real.cos _ = c9
    generalize Real.cos _ = c10
    ring

/-- what `dspace` returns as mean motion of a half-day resonant orbit within the first grid cell -/
theorem dspace_half_nm (o : DspaceOptions ℝ) (hi : o.irez = 2) (h0 : o.atime = 0) (ht : |o.t| < 720) :
    ∃ r, dspace o = some r ∧ r.nm = o.no + halfDayRate o o.argpo o.xlamo * o.t
      + halfNddt o o.xlamo 0.0 * (o.no + o.xfact) * o.t ^ 2 / 2 := by
  have e0 : (0.0:ℝ) = 0 := by norm_num
  have hz : ¬ (o.irez ==. (0.0:ℝ)) = true := by rw [hi]; simp [e0]
  have hz2 : (o.irez ==. (2.0:ℝ)) = true := by rw [hi]; simp; norm_num
  unfold dspace
  dsimp only
  rw [if_neg hz, dspaceLoop_short o h0 ht]
  refine ⟨_, rfl, ?_⟩
  dsimp only
  rw [if_pos hz2, if_pos hz2, halfNdt_real]
  generalize halfNddt o o.xlamo 0.0 = dd
  rw [e0, show (0.5:ℝ) = 1 / 2 by norm_num]
  ring

/-- **C50.** Half-day resonance: the second derivative used is short of (derivative of the rate) times (longitude rate) by
exactly three terms. -/
theorem C50_halfday (o : DspaceOptions ℝ) (hi : o.irez = 2) (h0 : o.atime = 0) (ht : |o.t| < 720) :
    ∃ r d, dspace o = some r ∧ HasDerivAt (halfDayRate o o.argpo) d o.xlamo ∧
      r.nm = o.no + halfDayRate o o.argpo o.xlamo * o.t
        + (d - halfDayMissing o o.argpo o.xlamo) * (o.no + o.xfact) * o.t ^ 2 / 2 := by
  obtain ⟨r, hr, hnm⟩ := dspace_half_nm o hi h0 ht
  refine ⟨r, _, hr, halfDay_derivative o o.xlamo, ?_⟩
  rw [hnm, add_sub_cancel_right]

/-- **C50, violated.** For every half-day orbit whose three terms do not cancel, the returned mean motion is not the
second-order expansion of the rate law. -/
theorem C50_violated_halfday (o : DspaceOptions ℝ) (hi : o.irez = 2) (h0 : o.atime = 0) (ht : |o.t| < 720) (ht0 : o.t ≠ 0)
    (hrate : o.no + o.xfact ≠ 0) (hm : halfDayMissing o o.argpo o.xlamo ≠ 0) :
    ∃ r d, dspace o = some r ∧ HasDerivAt (halfDayRate o o.argpo) d o.xlamo ∧
      r.nm ≠ o.no + halfDayRate o o.argpo o.xlamo * o.t + d * (o.no + o.xfact) * o.t ^ 2 / 2 := by
  obtain ⟨r, d, hr, hd, hnm⟩ := C50_halfday o hi h0 ht
  refine ⟨r, d, hr, hd, fun h => ?_⟩
  rw [hnm] at h
  have h2 : halfDayMissing o o.argpo o.xlamo * (o.no + o.xfact) * o.t ^ 2 = 0 := by linarith
  rcases mul_eq_zero.mp h2 with h3 | h3
  · rcases mul_eq_zero.mp h3 with h4 | h4
    · exact hm h4
    · exact hrate h4
  · exact ht0 (pow_eq_zero_iff (by norm_num) |>.mp h3)

/-- options with every coefficient zero except as given -/
noncomputable def plainOptions (irez d4422 no xlamo t : ℝ) : DspaceOptions ℝ :=
  { irez, d4422, no, xlamo, t, d2201 := 0, d2211 := 0, d3210 := 0, d3222 := 0, d4410 := 0, d5220 := 0, d5232 := 0,
    d5421 := 0, d5433 := 0, dedt := 0, del1 := 0, del2 := 0, del3 := 0, didt := 0, dmdt := 0, dnodt := 0, domdt := 0,
    argpo := 0, argpdot := 0, tc := t, gsto := 0, xfact := 0, atime := 0, em := 0, argpm := 0, inclm := 0, xli := xlamo,
    mm := 0, xni := no, nodem := 0, nm := no }

/-- The hypotheses of `C50_violated_halfday` are met by an orbit with `d4422 = 1e-9`, `n = 0.0088` and one hour. -/
example : (plainOptions 2 1e-9 0.0088 0.9007499 60).irez = 2 ∧ (plainOptions 2 1e-9 0.0088 0.9007499 60).atime = 0 ∧
    |(plainOptions 2 1e-9 0.0088 0.9007499 60).t| < 720 ∧ (plainOptions 2 1e-9 0.0088 0.9007499 60).t ≠ 0 ∧
    (plainOptions 2 1e-9 0.0088 0.9007499 60).no + (plainOptions 2 1e-9 0.0088 0.9007499 60).xfact ≠ 0 ∧
    halfDayMissing (plainOptions 2 1e-9 0.0088 0.9007499 60) 0 0.9007499 ≠ 0 := by
  refine ⟨rfl, rfl, ?_, ?_, ?_, ?_⟩ <;> simp only [plainOptions, halfDayMissing]
  · rw [abs_lt]; constructor <;> norm_num
  · norm_num
  · norm_num
  · rw [show (2:ℝ) * 0.9007499 - 1.8014998 = 0 by norm_num, Real.cos_zero]; norm_num

/-- The hypotheses of `C50_synchronous` and `C09_loop_terminates` likewise. -/
example : (plainOptions 1 0 0.0043 1 100).irez = 1 ∧ (plainOptions 1 0 0.0043 1 100).atime = 0 ∧
    |(plainOptions 1 0 0.0043 1 100).t| < 720 := by
  refine ⟨rfl, rfl, ?_⟩
  simp only [plainOptions]; rw [abs_lt]; constructor <;> norm_num

end Sat
