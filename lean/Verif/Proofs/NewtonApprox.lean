import Verif.Spec.Sgp4Spec
import Verif.Props.Kepler
/-!
# The Kepler iteration with inexact steps

The iteration of the propagator (`Spec.newton`), over any arithmetic with an interpretation `v` in the real numbers in which each step is
Newton's up to an error `η`: for eccentricities up to 0.46 it finds a point where Kepler's equation holds to 2e-12.  Used with `η = 0` for exact
arithmetic and with `η = 10^-13` for doubles.
-/

namespace Sat
open Spec

/-- residual of Kepler's equation in terms of the eccentric longitude -/
noncomputable def kres (U ax ay E : ℝ) : ℝ := ((U - ay * Real.cos E) + ax * Real.sin E) - E
/-- minus its derivative -/
noncomputable def kden (ax ay E : ℝ) : ℝ := 1 - Real.cos E * ax - Real.sin E * ay

variable {U ax ay e : ℝ}

theorem kres_diff (h : ax ^ 2 + ay ^ 2 ≤ e ^ 2) (he : 0 ≤ e) (E E' : ℝ) :
    |kres U ax ay E - kres U ax ay E' + (E - E')| ≤ e * |E - E'| := by
  have e1 : kres U ax ay E - kres U ax ay E' + (E - E') =
      ax * (Real.sin E - Real.sin E') - ay * (Real.cos E - Real.cos E') := by unfold kres; ring
  rw [e1]; exact plane_cauchy h he (chord_le_arc E E') (abs_nonneg _)

theorem kres_separates (h : ax ^ 2 + ay ^ 2 ≤ e ^ 2) (he : 0 ≤ e) (E E' : ℝ) :
    (1 - e) * |E - E'| ≤ |kres U ax ay E - kres U ax ay E'| := by
  have h1 := kres_diff (U := U) h he E E'
  have h2 : |E - E'| ≤ |kres U ax ay E - kres U ax ay E' + (E - E')| + |kres U ax ay E - kres U ax ay E'| := by
    have e2 : E - E' = (kres U ax ay E - kres U ax ay E' + (E - E')) - (kres U ax ay E - kres U ax ay E') := by ring
    calc |E - E'| = |(kres U ax ay E - kres U ax ay E' + (E - E')) - (kres U ax ay E - kres U ax ay E')| := by rw [← e2]
      _ ≤ _ := abs_sub _ _
  linarith

theorem kres_lipschitz (h : ax ^ 2 + ay ^ 2 ≤ e ^ 2) (he : 0 ≤ e) (E E' : ℝ) :
    |kres U ax ay E - kres U ax ay E'| ≤ (1 + e) * |E - E'| := by
  have h1 := kres_diff (U := U) h he E E'
  have h2 : |kres U ax ay E - kres U ax ay E'| ≤ |kres U ax ay E - kres U ax ay E' + (E - E')| + |E - E'| := by
    have e2 : kres U ax ay E - kres U ax ay E' = (kres U ax ay E - kres U ax ay E' + (E - E')) - (E - E') := by ring
    calc _ = |(kres U ax ay E - kres U ax ay E' + (E - E')) - (E - E')| := by rw [← e2]
      _ ≤ _ := abs_sub _ _
  linarith

theorem kden_bounds (h : ax ^ 2 + ay ^ 2 ≤ e ^ 2) (he : 0 ≤ e) (E : ℝ) : 1 - e ≤ kden ax ay E ∧ kden ax ay E ≤ 1 + e := by
  have h1 : |ax * Real.cos E - ay * (-Real.sin E)| ≤ e * 1 :=
    plane_cauchy h he (by nlinarith [Real.sin_sq_add_cos_sq E]) zero_le_one
  have h2 := abs_le.mp h1
  unfold kden
  constructor <;> linarith [h2.1, h2.2]

theorem kres_start (h : ax ^ 2 + ay ^ 2 ≤ e ^ 2) (he : 0 ≤ e) : |kres U ax ay U| ≤ e := by
  have e0 : kres U ax ay U = ax * Real.sin U - ay * Real.cos U := by unfold kres; ring
  rw [e0]
  calc _ ≤ e * 1 := plane_cauchy h he (by nlinarith [Real.sin_sq_add_cos_sq U]) zero_le_one
    _ = _ := by ring

/-- a point with small residual is near the right-hand side -/
theorem kres_near (h : ax ^ 2 + ay ^ 2 ≤ e ^ 2) (he : 0 ≤ e) (E : ℝ) : |E - U| ≤ |kres U ax ay E| + e := by
  have h1 : |ax * Real.sin E - ay * Real.cos E| ≤ e * 1 := plane_cauchy h he (by nlinarith [Real.sin_sq_add_cos_sq E]) zero_le_one
  have e1 : E - U = (ax * Real.sin E - ay * Real.cos E) - kres U ax ay E := by unfold kres; ring
  calc |E - U| = |(ax * Real.sin E - ay * Real.cos E) - kres U ax ay E| := by rw [← e1]
    _ ≤ _ := (abs_sub _ _).trans (by linarith)

/-- Newton's step reduces the residual quadratically -/
theorem kres_step (h : ax ^ 2 + ay ^ 2 ≤ e ^ 2) (he : 0 ≤ e) (he1 : e < 1) (E : ℝ) :
    |kres U ax ay (E + kres U ax ay E / kden ax ay E)| ≤ e / 2 * (kres U ax ay E / kden ax ay E) ^ 2 := by
  obtain ⟨d1, d2⟩ := kden_bounds h he E
  have hD0 : 0 < kden ax ay E := by linarith
  set δ := kres U ax ay E / kden ax ay E with hδ
  have hδ' : δ * kden ax ay E = kres U ax ay E := by rw [hδ]; field_simp
  set P := Real.sin E * (Real.cos δ - 1) + Real.cos E * (Real.sin δ - δ) with hP
  set Q := Real.cos E * (Real.cos δ - 1) - Real.sin E * (Real.sin δ - δ) with hQ
  have hres : kres U ax ay (E + δ) = ax * P - ay * Q := by
    unfold kres kden at hδ'
    unfold kres
    rw [Real.sin_add, Real.cos_add, hP, hQ]
    linear_combination -hδ'
  have hPQ : P ^ 2 + Q ^ 2 ≤ (δ ^ 2 / 2) ^ 2 := by
    have h0 := cis_remainder δ
    have h1 := Real.sin_sq_add_cos_sq E
    have : P ^ 2 + Q ^ 2 = (Real.cos δ - 1) ^ 2 + (Real.sin δ - δ) ^ 2 := by
      rw [hP, hQ]; linear_combination ((Real.cos δ - 1) ^ 2 + (Real.sin δ - δ) ^ 2) * h1
    linarith
  rw [hres]
  calc _ ≤ e * (δ ^ 2 / 2) := plane_cauchy h he hPQ (by positivity)
    _ = _ := by ring

section
variable {F : Type} [Arith F]

/-- the correction computed by the program at `E` -/
def newtonStep (U ax ay E : F) : F :=
  let raw := (((U - (ay * Arith.cos E)) + (ax * Arith.sin E)) - E) / (1.0 - (Arith.cos E * ax) - (Arith.sin E * ay))
  if Arith.abs raw ≥. 0.95 then (if raw >. 0.0 then 0.95 else -0.95) else raw

theorem newton_succ (U ax ay : F) (n : ℕ) (E d : F) (sc : F × F) :
    newton U ax ay (n + 1) E d sc = if Arith.abs d ≥. 1.0e-12 then
      newton U ax ay n (E + newtonStep U ax ay E) (newtonStep U ax ay E) (Arith.sin E, Arith.cos E) else sc := rfl

/-- the arithmetic makes Newton's step with error at most `η` -/
structure NewtonOK (v : F → ℝ) (ok : F → Prop) (U ax ay : F) (η : ℝ) : Prop where
  ecc : v ax ^ 2 + v ay ^ 2 ≤ 0.46 ^ 2
  start : ok U
  step : ∀ E, ok E → |kres (v U) (v ax) (v ay) (v E)| ≤ 0.46 →
    ok (newtonStep U ax ay E) ∧ ok (E + newtonStep U ax ay E) ∧
    |v (newtonStep U ax ay E) - kres (v U) (v ax) (v ay) (v E) / kden (v ax) (v ay) (v E)| ≤ η ∧
    |v (E + newtonStep U ax ay E) - (v E + kres (v U) (v ax) (v ay) (v E) / kden (v ax) (v ay) (v E))| ≤ η
  stop : ∀ d, ok d → ¬ (Arith.abs d ≥. (1.0e-12 : F)) = true → |v d| ≤ 1.01e-12
  go : ∀ d, ok d → (Arith.abs d ≥. (1.0e-12 : F)) = true → 0.9e-12 ≤ |v d|
  first : (Arith.abs (9999.9 : F) ≥. (1.0e-12 : F)) = true

/-- the pair is the sine and cosine at a point where Kepler's equation holds to 2e-12 -/
def GoodPair (v : F → ℝ) (ok : F → Prop) (U ax ay : F) (sc : F × F) : Prop :=
  ∃ E, ok E ∧ sc = (Arith.sin E, Arith.cos E) ∧ |kres (v U) (v ax) (v ay) (v E)| ≤ 2e-12

variable {v : F → ℝ} {ok : F → Prop} {U ax ay : F} {η : ℝ}

theorem newton_advance (h : NewtonOK v ok U ax ay η) (hη : η ≤ 1e-13) {b b' : ℝ} (hb : b ≤ 0.46)
    (hb' : 0.23 * (b / 0.54) ^ 2 + 1.46e-13 ≤ b') {n : ℕ} {E d : F} {sc : F × F} (hE : ok E)
    (hr : |kres (v U) (v ax) (v ay) (v E)| ≤ b) (hsc : ¬ (Arith.abs d ≥. (1.0e-12 : F)) = true → GoodPair v ok U ax ay sc)
    (cont : ∀ E' d' : F, ok E' → ok d' → |kres (v U) (v ax) (v ay) (v E')| ≤ b' → |v d'| ≤ b / 0.54 + 1e-13 →
      (¬ (Arith.abs d' ≥. (1.0e-12 : F)) = true → GoodPair v ok U ax ay (Arith.sin E, Arith.cos E)) →
      GoodPair v ok U ax ay (newton U ax ay n E' d' (Arith.sin E, Arith.cos E))) :
    GoodPair v ok U ax ay (newton U ax ay (n + 1) E d sc) := by
  rw [newton_succ]
  split
  · obtain ⟨s1, s2, s3, s4⟩ := h.step E hE (hr.trans hb)
    obtain ⟨d1, d2⟩ := kden_bounds h.ecc (by norm_num) (v E)
    have hst := kres_step (U := v U) h.ecc (by norm_num) (by norm_num) (v E)
    set κ := kres (v U) (v ax) (v ay) (v E) with hκ
    set D := kden (v ax) (v ay) (v E) with hD
    have hD0 : 0 < D := by norm_num at *; linarith
    have hη0 : 0 ≤ η := (abs_nonneg _).trans s3
    have hq : |κ / D| ≤ b / 0.54 := by
      rw [abs_div, abs_of_pos hD0]
      exact div_le_div₀ ((abs_nonneg _).trans hr) hr (by norm_num) (by norm_num at *; linarith)
    refine cont _ _ s2 s1 ?_ ?_ ?_
    · have hl := kres_lipschitz (U := v U) h.ecc (by norm_num) (v (E + newtonStep U ax ay E)) (v E + κ / D)
      have h1 : |kres (v U) (v ax) (v ay) (v (E + newtonStep U ax ay E))| ≤
          |kres (v U) (v ax) (v ay) (v E + κ / D)| + (1 + 0.46) * η := by
        have h2 : (1 + 0.46 : ℝ) * |v (E + newtonStep U ax ay E) - (v E + κ / D)| ≤ (1 + 0.46) * η := by gcongr
        have h3 := abs_sub_abs_le_abs_sub (kres (v U) (v ax) (v ay) (v (E + newtonStep U ax ay E))) (kres (v U) (v ax) (v ay) (v E + κ / D))
        linarith
      have h4 : (κ / D) ^ 2 ≤ (b / 0.54) ^ 2 := by
        rw [← sq_abs (κ / D)]; gcongr
      refine h1.trans (le_trans ?_ hb')
      norm_num at hst hη ⊢
      norm_num at h4
      linarith
    · have e1 : v (newtonStep U ax ay E) = κ / D + (v (newtonStep U ax ay E) - κ / D) := by ring
      rw [e1]; exact (abs_add_le _ _).trans (add_le_add hq (s3.trans hη))
    · intro hstop
      have h1 := h.stop _ s1 hstop
      refine ⟨E, hE, rfl, ?_⟩
      have h2 : |κ / D| ≤ 1.11e-12 := by
        have e1 : κ / D = v (newtonStep U ax ay E) - (v (newtonStep U ax ay E) - κ / D) := by ring
        rw [e1]
        refine (abs_sub _ _).trans ?_
        norm_num at *; linarith
      rw [abs_div, abs_of_pos hD0, div_le_iff₀ hD0] at h2
      refine h2.trans ?_
      norm_num at *; linarith
  · rename_i hd; exact hsc hd

/-- The iteration ends at a point where Kepler's equation holds to 2e-12. -/
theorem newton_solves (h : NewtonOK v ok U ax ay η) (hη : η ≤ 1e-13) (sc : F × F) :
    GoodPair v ok U ax ay (newton U ax ay 10 U 9999.9 sc) := by
  have h0 := kres_start (U := v U) h.ecc (by norm_num)
  refine newton_advance h hη (b := 0.46) (b' := 0.167) le_rfl (by norm_num) h.start h0 (fun hc => absurd h.first hc) ?_
  intro E1 d1 o1 p1 r1 _ g1
  refine newton_advance h hη (b := 0.167) (b' := 0.0221) (by norm_num) (by norm_num) o1 r1 g1 ?_
  intro E2 d2 o2 p2 r2 _ g2
  refine newton_advance h hη (b := 0.0221) (b' := 0.0004) (by norm_num) (by norm_num) o2 r2 g2 ?_
  intro E3 d3 o3 p3 r3 _ g3
  refine newton_advance h hη (b := 0.0004) (b' := 1.3e-7) (by norm_num) (by norm_num) o3 r3 g3 ?_
  intro E4 d4 o4 p4 r4 _ g4
  refine newton_advance h hη (b := 1.3e-7) (b' := 1.7e-13) (by norm_num) (by norm_num) o4 r4 g4 ?_
  intro E5 d5 o5 p5 r5 _ g5
  refine newton_advance h hη (b := 1.7e-13) (b' := 1.5e-13) (by norm_num) (by norm_num) o5 r5 g5 ?_
  intro E6 d6 o6 p6 r6 s6 g6
  have hd : ¬ (Arith.abs d6 ≥. (1.0e-12 : F)) = true := by
    intro hc
    have := (h.go d6 p6 hc).trans s6
    norm_num at this
  rw [newton_succ, if_neg hd]
  exact g6 hd

end

/-- exact arithmetic -/
theorem newtonOK_real (U ax ay : ℝ) (h : ax ^ 2 + ay ^ 2 ≤ 0.46 ^ 2) : NewtonOK (F := ℝ) id (fun _ => True) U ax ay 0 where
  ecc := h
  start := trivial
  step := by
    intro E _ hr
    obtain ⟨d1, d2⟩ := kden_bounds h (by norm_num) E
    have hD0 : 0 < kden ax ay E := by norm_num at *; linarith
    have e1 : newtonStep U ax ay E = kres U ax ay E / kden ax ay E := by
      have hraw : (((U - (ay * Arith.cos E)) + (ax * Arith.sin E)) - E) / (1.0 - (Arith.cos E * ax) - (Arith.sin E * ay)) =
          kres U ax ay E / kden ax ay E := by
        unfold kres kden; norm_num
      unfold newtonStep
      rw [hraw]
      have hq : |kres U ax ay E / kden ax ay E| < 0.95 := by
        rw [abs_div, abs_of_pos hD0, div_lt_iff₀ hD0]
        simp only [id] at hr
        norm_num at *; linarith
      have : ¬ (Arith.abs (kres U ax ay E / kden ax ay E) ≥. (0.95 : ℝ)) = true := by
        show ¬ decide ((0.95 : ℝ) ≤ |kres U ax ay E / kden ax ay E|) = true
        rw [decide_eq_true_eq]; exact not_le.mpr hq
      dsimp only
      rw [if_neg this]
    refine ⟨trivial, trivial, ?_, ?_⟩ <;> simp [e1]
  stop := by
    intro d _ hd
    have h1 : ¬ decide ((1.0e-12 : ℝ) ≤ |d|) = true := hd
    rw [decide_eq_true_eq, not_le] at h1
    simp only [id]; norm_num at *; linarith
  go := by
    intro d _ hd
    have h1 : decide ((1.0e-12 : ℝ) ≤ |d|) = true := hd
    rw [decide_eq_true_eq] at h1
    simp only [id]; norm_num at *; linarith
  first := by
    show decide ((1.0e-12 : ℝ) ≤ |9999.9|) = true
    rw [decide_eq_true_eq]; norm_num

end Sat
