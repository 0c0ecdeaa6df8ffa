import Verif.Props.Kepler
import Verif.Props.Accept
import Mathlib.Analysis.Calculus.Deriv.Inv
import Mathlib.Analysis.Calculus.Deriv.Slope
import Mathlib.Analysis.Calculus.DSlope
import Mathlib.Analysis.Calculus.MeanValue
import Mathlib.Analysis.SpecialFunctions.Sqrt
import Mathlib.Analysis.SpecialFunctions.Trigonometric.Deriv
/-!
# The velocity is the rate of change of the position

The published state for mean elements which change slowly.  Time is measured in units of `1 / n`, lengths in units of `a`; exact arithmetic.
-/

namespace Sat
open Spec.R3 Filter Topology

/-! ## The root of Kepler's equation moves smoothly -/

theorem hasDerivAt_mul_of_zero {f g : ℝ → ℝ} {f' t : ℝ} (hf : HasDerivAt f f' t) (h0 : f t = 0) (hg : ContinuousAt g t) :
    HasDerivAt (fun s => f s * g s) (f' * g t) t := by
  rw [hasDerivAt_iff_tendsto_slope] at hf ⊢
  have : slope (fun s => f s * g s) t = fun s => slope f t s * g s := by
    funext s
    simp only [slope_def_field, h0]
    ring
  rw [this]
  exact hf.mul (hg.tendsto.mono_left nhdsWithin_le_nhds)

/-- if `h ∘ E` is differentiable, `h' ≠ 0`, and `E` is continuous, then `E` is differentiable -/
theorem hasDerivAt_of_comp {h E : ℝ → ℝ} {p q t : ℝ} (hp : HasDerivAt (fun s => h (E s)) p t) (hq : HasDerivAt h q (E t)) (hq0 : q ≠ 0)
    (hE : ContinuousAt E t) : HasDerivAt E (p / q) t := by
  have hS : ContinuousAt (fun s => dslope h (E t) (E s)) t := by
    have := (continuousAt_dslope_same (f := h) (a := E t)).mpr hq.differentiableAt
    exact ContinuousAt.comp' this hE
  have hSt : dslope h (E t) (E t) = q := by rw [dslope_same, hq.deriv]
  have hne : ∀ᶠ s in 𝓝 t, dslope h (E t) (E s) ≠ 0 := hS.eventually_ne (by rw [hSt]; exact hq0)
  have h1 : HasDerivAt (fun s => (h (E s) - h (E t)) * (dslope h (E t) (E s))⁻¹) (p * q⁻¹) t := by
    have := hasDerivAt_mul_of_zero (hp.sub_const (h (E t))) (by simp) (hS.inv₀ (by rw [hSt]; exact hq0))
    simp only [Pi.inv_apply, hSt] at this
    exact this
  have h2 : HasDerivAt (fun s => E s - E t) (p / q) t := by
    rw [div_eq_mul_inv]
    refine h1.congr_of_eventuallyEq ?_
    filter_upwards [hne] with s hs
    have := sub_smul_dslope h (E t) (E s)
    rw [smul_eq_mul] at this
    rw [← this]
    field_simp
  simpa using h2.add_const (E t)

theorem hasDerivAt_root {m : ℝ → Mean} {E : ℝ → ℝ} {t x' y' u' e : ℝ} (hx : HasDerivAt (fun s => (m s).axN) x' t)
    (hy : HasDerivAt (fun s => (m s).ayN) y' t) (hu : HasDerivAt (fun s => (m s).U) u' t) (h : (m t).eL2 ≤ e ^ 2) (he : 0 ≤ e) (he1 : e < 1)
    (hE : ∀ s, (m s).kepler (E s) = 0) :
    HasDerivAt E ((u' + x' * Real.sin (E t) - y' * Real.cos (E t)) / (1 - (m t).ecosE (E t))) t := by
  have hc : ContinuousAt E t := by
    have hb : ∀ s, |E s - E t| ≤ (|(m s).U - (m t).U| + |(m s).ayN - (m t).ayN| + |(m s).axN - (m t).axN|) / (1 - e) := by
      intro s
      rw [le_div_iff₀ (by linarith), mul_comm]
      refine (kepler_separates h he (E s) (E t)).trans ?_
      rw [hE t, sub_zero]
      have e1 : (m t).kepler (E s) = -((m s).U - (m t).U) + (((m s).ayN - (m t).ayN) * Real.cos (E s)) + -(((m s).axN - (m t).axN) * Real.sin (E s)) := by
        have := hE s
        unfold Mean.kepler at this ⊢
        linear_combination this
      rw [e1]
      refine (abs_add_three _ _ _).trans ?_
      rw [abs_neg, abs_neg, abs_mul, abs_mul]
      gcongr
      · exact mul_le_of_le_one_right (abs_nonneg _) (Real.abs_cos_le_one _)
      · exact mul_le_of_le_one_right (abs_nonneg _) (Real.abs_sin_le_one _)
    have hlim : Tendsto (fun s => (|(m s).U - (m t).U| + |(m s).ayN - (m t).ayN| + |(m s).axN - (m t).axN|) / (1 - e)) (𝓝 t) (𝓝 0) := by
      have k1 := ((hu.continuousAt.sub_const ((m t).U)).abs)
      have k2 := ((hy.continuousAt.sub_const ((m t).ayN)).abs)
      have k3 := ((hx.continuousAt.sub_const ((m t).axN)).abs)
      have := ((k1.add k2).add k3).div_const (1 - e)
      simpa using this
    rw [ContinuousAt, tendsto_iff_norm_sub_tendsto_zero]
    exact squeeze_zero (fun _ => norm_nonneg _) hb hlim
  have hq : HasDerivAt (fun z : ℝ => z - (m t).axN * Real.sin z + (m t).ayN * Real.cos z)
      (1 - (m t).axN * Real.cos (E t) + (m t).ayN * (-Real.sin (E t))) (E t) :=
    ((hasDerivAt_id _).sub ((Real.hasDerivAt_sin _).const_mul _)).add ((Real.hasDerivAt_cos _).const_mul _)
  have hD : 1 - (m t).axN * Real.cos (E t) + (m t).ayN * (-Real.sin (E t)) = 1 - (m t).ecosE (E t) := by unfold Mean.ecosE; ring
  have hD0 : 1 - (m t).ecosE (E t) ≠ 0 := by
    have := (newton_denominator h he (E t)).1
    rw [show 1 - (m t).axN * Real.cos (E t) - (m t).ayN * Real.sin (E t) = 1 - (m t).ecosE (E t) by unfold Mean.ecosE; ring] at this
    linarith
  rw [hD] at hq
  refine hasDerivAt_of_comp (h := fun z => z - (m t).axN * Real.sin z + (m t).ayN * Real.cos z) ?_ hq hD0 hc
  have s1 := hasDerivAt_mul_of_zero (hx.sub_const ((m t).axN)) (by simp) (Real.continuous_sin.continuousAt.comp' hc)
  have s2 := hasDerivAt_mul_of_zero (hy.sub_const ((m t).ayN)) (by simp) (Real.continuous_cos.continuousAt.comp' hc)
  refine ((hu.add s1).sub s2).congr_of_eventuallyEq (Eventually.of_forall fun s => ?_)
  have := hE s
  unfold Mean.kepler at this
  simp only [Pi.add_apply, Pi.sub_apply]
  linear_combination -this

/-! ## Mean elements that change slowly -/

theorem abs_mul_bd {a b A B : ℝ} (ha : |a| ≤ A) (hb : |b| ≤ B) : |a * b| ≤ A * B := by
  rw [abs_mul]; exact mul_le_mul ha hb (abs_nonneg _) ((abs_nonneg _).trans ha)

theorem abs_add_bd {a b A B : ℝ} (ha : |a| ≤ A) (hb : |b| ≤ B) : |a + b| ≤ A + B := (abs_add_le _ _).trans (add_le_add ha hb)

theorem abs_sub_bd {a b A B : ℝ} (ha : |a| ≤ A) (hb : |b| ≤ B) : |a - b| ≤ A + B := (abs_sub _ _).trans (add_le_add ha hb)

theorem abs_neg_bd {a A : ℝ} (ha : |a| ≤ A) : |-a| ≤ A := by rwa [abs_neg]

theorem abs_div_bd {a b A B : ℝ} (ha : |a| ≤ A) (hB : 0 < B) (hb : B ≤ b) : |a / b| ≤ A / B := by
  rw [abs_div, abs_of_pos (lt_of_lt_of_le hB hb)]
  exact div_le_div₀ ((abs_nonneg _).trans ha) ha hB hb

/-- Elements `m` which, at time `t` in units of the inverse mean motion, change at the rates `x'` (of `e cos ω`), `y'`, `u'` (argument of
latitude), `a'`, `h'` (node); `E` solves Kepler's equation.  The rates are those of the secular theory of an orbit above the surface. -/
structure Slow (m : ℝ → Mean) (E : ℝ → ℝ) (t x' y' u' a' h' : ℝ) : Prop where
  hx : HasDerivAt (fun s => (m s).axN) x' t
  hy : HasDerivAt (fun s => (m s).ayN) y' t
  hu : HasDerivAt (fun s => (m s).U) u' t
  ha : HasDerivAt (fun s => (m s).a) a' t
  hh : HasDerivAt (fun s => (m s).Ω) h' t
  bx : |x'| ≤ 0.001
  byy : |y'| ≤ 0.001
  bu : |u' - 1| ≤ 0.0055
  ba : |a'| ≤ 0.0001 * (m t).a
  bh : |h'| ≤ 0.0018
  inc : ∀ s, (m s).i = (m t).i
  root : ∀ s, (m s).kepler (E s) = 0
  ecc : (m t).eL2 ≤ 0.45 ^ 2
  axis : 1 ≤ (m t).a
  per : 0.998 ≤ (m t).pL

set_option linter.unusedSimpArgs false

namespace Slow
variable {m : ℝ → Mean} {E : ℝ → ℝ} {t x' y' u' a' h' : ℝ}

/-- values at the instant considered -/
theorem values (_H : Slow m E t x' y' u' a' h') :
    |(m t).axN| ≤ 0.45 ∧ |(m t).ayN| ≤ 0.45 ∧ |(m t).esinE (E t)| ≤ 0.45 ∧ 0.55 ≤ 1 - (m t).ecosE (E t) ∧ 1 - (m t).ecosE (E t) ≤ 1.45 ∧
    |(m t).ecosE (E t)| ≤ 0.45 ∧
    0.89 ≤ Real.sqrt (1 - (m t).eL2) ∧ Real.sqrt (1 - (m t).eL2) ≤ 1 ∧ |x' * Real.cos (E t) + y' * Real.sin (E t)| ≤ 0.00142 ∧
    |x' * Real.sin (E t) - y' * Real.cos (E t)| ≤ 0.00142 ∧ |(m t).axN * x' + (m t).ayN * y'| ≤ 0.00064 := by
  have hs := _H.ecc
  have hel : (m t).eL2 = (m t).axN ^ 2 + (m t).ayN ^ 2 := rfl
  have sc := Real.sin_sq_add_cos_sq (E t)
  have hxy : x' ^ 2 + y' ^ 2 ≤ 0.00142 ^ 2 := by
    have h1 := sq_le_sq' (abs_le.mp _H.bx).1 (abs_le.mp _H.bx).2
    have h2 := sq_le_sq' (abs_le.mp _H.byy).1 (abs_le.mp _H.byy).2
    norm_num at *; linarith
  have hc : |(m t).ecosE (E t)| ≤ 0.45 * 1 := by
    have := plane_cauchy (x := (m t).axN) (y := (m t).ayN) (p := Real.cos (E t)) (q := -Real.sin (E t)) (hel ▸ hs) (by norm_num)
      (by nlinarith : _ ≤ (1:ℝ) ^ 2) zero_le_one
    unfold Mean.ecosE
    rwa [mul_neg, sub_neg_eq_add] at this
  obtain ⟨c1, c2⟩ := abs_le.mp hc
  have hs1 : |(m t).esinE (E t)| ≤ 0.45 * 1 := by
    unfold Mean.esinE
    exact plane_cauchy (hel ▸ hs) (by norm_num) (by nlinarith : _ ≤ (1:ℝ) ^ 2) zero_le_one
  refine ⟨?_, ?_, by linarith, by linarith, by linarith, by linarith, ?_, ?_, ?_, ?_, ?_⟩
  · refine abs_le_of_sq_le_sq ?_ (by norm_num); nlinarith [sq_nonneg (m t).ayN]
  · refine abs_le_of_sq_le_sq ?_ (by norm_num); nlinarith [sq_nonneg (m t).axN]
  · refine Real.le_sqrt_of_sq_le ?_; norm_num at *; linarith
  · refine Real.sqrt_le_one.mpr ?_; rw [hel]; nlinarith [sq_nonneg (m t).axN, sq_nonneg (m t).ayN]
  · have := plane_cauchy (x := x') (y := y') (p := Real.cos (E t)) (q := -Real.sin (E t)) hxy (by norm_num)
      (by nlinarith : _ ≤ (1:ℝ) ^ 2) zero_le_one
    rw [mul_neg, sub_neg_eq_add] at this; linarith
  · have := plane_cauchy (x := x') (y := y') (p := Real.sin (E t)) (q := Real.cos (E t)) hxy (by norm_num)
      (by nlinarith : _ ≤ (1:ℝ) ^ 2) zero_le_one
    linarith
  · have := plane_cauchy (x := (m t).axN) (y := (m t).ayN) (p := x') (q := -y') (hel ▸ hs) (by norm_num)
      (d := 0.00142) (by rw [neg_sq]; exact hxy) (by norm_num)
    rw [mul_neg, sub_neg_eq_add] at this; norm_num at *; linarith

/-- rate of the eccentric longitude -/
noncomputable def rate (m : ℝ → Mean) (E : ℝ → ℝ) (t x' y' u' : ℝ) : ℝ :=
  (u' + x' * Real.sin (E t) - y' * Real.cos (E t)) / (1 - (m t).ecosE (E t))

theorem hE (H : Slow m E t x' y' u' a' h') : HasDerivAt E (rate m E t x' y' u') t :=
  hasDerivAt_root H.hx H.hy H.hu H.ecc (by norm_num) (by norm_num) H.root

/-- `1 - e cos E` -/
theorem hρ (H : Slow m E t x' y' u' a' h') : HasDerivAt (fun s => 1 - (m s).ecosE (E s))
    ((m t).esinE (E t) * rate m E t x' y' u' - (x' * Real.cos (E t) + y' * Real.sin (E t))) t := by
  have h := ((H.hx.mul H.hE.cos).add (H.hy.mul H.hE.sin)).const_sub 1
  refine h.congr_deriv ?_
  unfold Mean.esinE
  ring

theorem hs (H : Slow m E t x' y' u' a' h') : HasDerivAt (fun s => (m s).esinE (E s))
    ((m t).ecosE (E t) * rate m E t x' y' u' + (x' * Real.sin (E t) - y' * Real.cos (E t))) t := by
  have h := ((H.hx.mul H.hE.sin).sub (H.hy.mul H.hE.cos))
  refine h.congr_deriv ?_
  unfold Mean.ecosE
  ring

theorem heL (H : Slow m E t x' y' u' a' h') : HasDerivAt (fun s => 1 - (m s).eL2) (-(2 * ((m t).axN * x' + (m t).ayN * y'))) t := by
  have h := ((H.hx.pow 2).add (H.hy.pow 2)).const_sub 1
  refine h.congr_deriv ?_
  simp only [Nat.cast_ofNat, Nat.reduceSub, pow_one]; ring

theorem hβ (H : Slow m E t x' y' u' a' h') : HasDerivAt (fun s => Real.sqrt (1 - (m s).eL2))
    (-((m t).axN * x' + (m t).ayN * y') / Real.sqrt (1 - (m t).eL2)) t := by
  have h0 : 1 - (m t).eL2 ≠ 0 := by have := H.ecc; norm_num at *; linarith
  refine (H.heL.sqrt h0).congr_deriv ?_
  ring

/-- rate of the true anomaly -/
noncomputable def turn (m : ℝ → Mean) (E : ℝ → ℝ) (t x' y' u' : ℝ) : ℝ :=
  rate m E t x' y' u' * Real.sqrt (1 - (m t).eL2) / (1 - (m t).ecosE (E t))

theorem rate_bounds (H : Slow m E t x' y' u' a' h') :
    ∃ κ, |κ| ≤ 0.007 ∧ rate m E t x' y' u' = (1 + κ) / (1 - (m t).ecosE (E t)) ∧
      turn m E t x' y' u' = (1 + κ) * Real.sqrt (1 - (m t).eL2) / (1 - (m t).ecosE (E t)) ^ 2 := by
  obtain ⟨-, -, -, -, -, -, -, -, -, v1, -⟩ := H.values
  refine ⟨u' + x' * Real.sin (E t) - y' * Real.cos (E t) - 1, ?_, ?_, ?_⟩
  · have := abs_add_bd H.bu v1
    norm_num at *
    rw [show u' + x' * Real.sin (E t) - y' * Real.cos (E t) - 1 = u' - 1 + (x' * Real.sin (E t) - y' * Real.cos (E t)) by ring]
    linarith
  · unfold rate; ring
  · unfold turn rate; rw [sq, ← div_div]; ring

theorem wBound (H : Slow m E t x' y' u' a' h') : ∃ w', HasDerivAt (fun s => 1 / (1 + Real.sqrt (1 - (m s).eL2))) w' t ∧ |w'| ≤ 0.00021 ∧
    0 ≤ 1 / (1 + Real.sqrt (1 - (m t).eL2)) ∧ 1 / (1 + Real.sqrt (1 - (m t).eL2)) ≤ 0.53 := by
  obtain ⟨-, -, -, -, -, -, b1, b2, -, -, v3⟩ := H.values
  have h0 : 1 + Real.sqrt (1 - (m t).eL2) ≠ 0 := by positivity
  have h := (H.hβ.const_add 1).inv h0
  refine ⟨_, h.congr_of_eventuallyEq (Eventually.of_forall fun s => by simp [one_div]), ?_, by positivity, ?_⟩
  · have k1 := abs_div_bd (abs_neg_bd v3) (by norm_num : (0:ℝ) < 0.89) b1
    have k2 := abs_div_bd (abs_neg_bd k1) (by norm_num : (0:ℝ) < 1.89 ^ 2) (show (1.89:ℝ) ^ 2 ≤ (1 + Real.sqrt (1 - (m t).eL2)) ^ 2 by
      gcongr; norm_num at *; linarith)
    refine k2.trans (by norm_num)
  · rw [div_le_iff₀ (by positivity)]; norm_num at *; linarith

theorem cos_sin (H : Slow m E t x' y' u' a' h') :
    ∃ c d, |c| ≤ 0.0056 ∧ |d| ≤ 0.0056 ∧
      HasDerivAt (fun s => (m s).cosu (E s)) (-(m t).sinu (E t) * turn m E t x' y' u' + c) t ∧
      HasDerivAt (fun s => (m s).sinu (E s)) ((m t).cosu (E t) * turn m E t x' y' u' + d) t := by
  obtain ⟨vx, vy, vs, vr1, vr2, -, vb1, vb2, v1, v2, v3⟩ := H.values
  obtain ⟨w', hw, bw', w0, bw⟩ := H.wBound
  have bw : |1 / (1 + Real.sqrt (1 - (m t).eL2))| ≤ 0.53 := by rwa [abs_of_nonneg w0]
  have hr0 : 1 - (m t).ecosE (E t) ≠ 0 := by norm_num at *; linarith
  have ha0 : (m t).a ≠ 0 := by have := H.axis; linarith
  have hane : ∀ᶠ s in 𝓝 t, (m s).a ≠ 0 := H.ha.continuousAt.eventually_ne ha0
  have hrr : (m t).r (E t) ≠ 0 := mul_ne_zero ha0 hr0
  have hel1 : (m t).eL2 ≤ 1 := H.ecc.trans (by norm_num)
  have hcs := sinu_sq_add_cosu_sq (m t) (E t) hrr hel1
  have hC : |(m t).cosu (E t)| ≤ 1 := abs_le_one_iff_mul_self_le_one.mpr (by nlinarith [sq_nonneg ((m t).sinu (E t))])
  have hS : |(m t).sinu (E t)| ≤ 1 := abs_le_one_iff_mul_self_le_one.mpr (by nlinarith [sq_nonneg ((m t).cosu (E t))])
  have hb : Real.sqrt (1 - (m t).eL2) ^ 2 = 1 - (m t).eL2 := Real.sq_sqrt (by linarith)
  -- numerators
  have hξ := ((H.hE.cos.sub H.hx).add ((H.hy.mul H.hs).mul hw)).div H.hρ hr0
  have hη := ((H.hE.sin.sub H.hy).sub ((H.hx.mul H.hs).mul hw)).div H.hρ hr0
  have hcf : ∀ s, (m s).a ≠ 0 → (m s).cosu (E s) = (Real.cos (E s) - (m s).axN + (m s).ayN * (m s).esinE (E s) *
      (1 / (1 + Real.sqrt (1 - (m s).eL2)))) / (1 - (m s).ecosE (E s)) := by
    intro s hs
    unfold Mean.cosu Mean.r
    rw [div_mul_eq_div_div, div_self hs]; ring
  have hsf : ∀ s, (m s).a ≠ 0 → (m s).sinu (E s) = (Real.sin (E s) - (m s).ayN - (m s).axN * (m s).esinE (E s) *
      (1 / (1 + Real.sqrt (1 - (m s).eL2)))) / (1 - (m s).ecosE (E s)) := by
    intro s hs
    unfold Mean.sinu Mean.r
    rw [div_mul_eq_div_div, div_self hs]; ring
  have hCt := hcf t ha0
  have hSt := hsf t ha0
  have hdef : (m t).ecosE (E t) = (m t).axN * Real.cos (E t) + (m t).ayN * Real.sin (E t) := rfl
  have hdef2 : (m t).esinE (E t) = (m t).axN * Real.sin (E t) - (m t).ayN * Real.cos (E t) := rfl
  have heL : (m t).eL2 = (m t).axN ^ 2 + (m t).ayN ^ 2 := rfl
  have sc := Real.sin_sq_add_cos_sq (E t)
  have hwb : 1 / (1 + Real.sqrt (1 - (m t).eL2)) * (1 + Real.sqrt (1 - (m t).eL2)) = 1 := by
    have : 1 + Real.sqrt (1 - (m t).eL2) ≠ 0 := by positivity
    field_simp
  unfold turn
  set k := rate m E t x' y' u'
  set x := (m t).axN
  set y := (m t).ayN
  set w := 1 / (1 + Real.sqrt (1 - (m t).eL2))
  set β := Real.sqrt (1 - (m t).eL2)
  set c := (m t).ecosE (E t)
  set σ := (m t).esinE (E t)
  set C := (m t).cosu (E t)
  set S := (m t).sinu (E t)
  set h := x' * Real.cos (E t) + y' * Real.sin (E t)
  set g := x' * Real.sin (E t) - y' * Real.cos (E t)
  have hρC : C * (1 - c) = Real.cos (E t) - x + y * σ * w := by rw [hCt]; field_simp
  have hρS : S * (1 - c) = Real.sin (E t) - y - x * σ * w := by rw [hSt]; field_simp
  have hww : w * (x ^ 2 + y ^ 2) = 1 - β := by
    have : x ^ 2 + y ^ 2 = (1 - β) * (1 + β) := by rw [← heL]; linear_combination hb
    rw [this]; linear_combination (1 - β) * hwb
  have hβ' : β = 1 - w * (x ^ 2 + y ^ 2) := by linear_combination hww
  have hk : 2 * w - w ^ 2 * (x ^ 2 + y ^ 2) = 1 := by linear_combination hwb - w * hβ'
  -- the unperturbed rates
  have I1 : (-Real.sin (E t) + y * w * c) = σ * C - β * S := by
    have h1 : (-Real.sin (E t) + y * w * c) * (1 - c) = (σ * C - β * S) * (1 - c) := by
      rw [show (σ * C - β * S) * (1 - c) = σ * (C * (1 - c)) - β * (S * (1 - c)) by ring, hρC, hρS, hβ', hdef, hdef2]
      linear_combination (y - y * w * (x ^ 2 + y ^ 2)) * sc - x * (x * Real.sin (E t) - y * Real.cos (E t)) * hk
    exact mul_right_cancel₀ hr0 h1
  have I2 : (Real.cos (E t) - x * w * c) = σ * S + β * C := by
    have h1 : (Real.cos (E t) - x * w * c) * (1 - c) = (σ * S + β * C) * (1 - c) := by
      rw [show (σ * S + β * C) * (1 - c) = σ * (S * (1 - c)) + β * (C * (1 - c)) by ring, hρC, hρS, hβ', hdef, hdef2]
      linear_combination (-x + x * w * (x ^ 2 + y ^ 2)) * sc - y * (x * Real.sin (E t) - y * Real.cos (E t)) * hk
    exact mul_right_cancel₀ hr0 h1
  have B1 : |(-x' + y' * σ * w + y * g * w + y * σ * w' + C * h) / (1 - c)| ≤ (0.001 + 0.001 * 0.45 * 0.53 + 0.45 * 0.00142 * 0.53 + 0.45 * 0.45 * 0.00021 + 1 * 0.00142) / 0.55 :=
    abs_div_bd (abs_add_bd (abs_add_bd (abs_add_bd (abs_add_bd (abs_neg_bd H.bx) (abs_mul_bd (abs_mul_bd H.byy vs) bw)) (abs_mul_bd (abs_mul_bd vy v2) bw))
      (abs_mul_bd (abs_mul_bd vy vs) bw')) (abs_mul_bd hC v1)) (by norm_num) vr1
  have B2 : |(-y' - x' * σ * w - x * g * w - x * σ * w' + S * h) / (1 - c)| ≤ (0.001 + 0.001 * 0.45 * 0.53 + 0.45 * 0.00142 * 0.53 + 0.45 * 0.45 * 0.00021 + 1 * 0.00142) / 0.55 :=
    abs_div_bd (abs_add_bd (abs_sub_bd (abs_sub_bd (abs_sub_bd (abs_neg_bd H.byy) (abs_mul_bd (abs_mul_bd H.bx vs) bw)) (abs_mul_bd (abs_mul_bd vx v2) bw))
      (abs_mul_bd (abs_mul_bd vx vs) bw')) (abs_mul_bd hS v1)) (by norm_num) vr1
  refine ⟨_, _, B1.trans (by norm_num), B2.trans (by norm_num), (hξ.congr_of_eventuallyEq (hane.mono hcf)).congr_deriv ?_,
    (hη.congr_of_eventuallyEq (hane.mono hsf)).congr_deriv ?_⟩
  · simp only [Pi.add_apply, Pi.sub_apply, Pi.mul_apply]
    rw [show Real.cos (E t) - (m t).axN + (m t).ayN * (m t).esinE (E t) * (1 / (1 + Real.sqrt (1 - (m t).eL2))) = C * (1 - c) from hρC.symm]
    rw [div_eq_iff (pow_ne_zero 2 hr0), show (-S * (k * β / (1 - c)) + (-x' + y' * σ * w + y * g * w + y * σ * w' + C * h) / (1 - c)) * (1 - c) ^ 2 =
      (-S * k * β + (-x' + y' * σ * w + y * g * w + y * σ * w' + C * h)) * (1 - c) by field_simp]
    linear_combination k * (1 - c) * I1
  · simp only [Pi.add_apply, Pi.sub_apply, Pi.mul_apply]
    rw [show Real.sin (E t) - (m t).ayN - (m t).axN * (m t).esinE (E t) * (1 / (1 + Real.sqrt (1 - (m t).eL2))) = S * (1 - c) from hρS.symm]
    rw [div_eq_iff (pow_ne_zero 2 hr0), show (C * (k * β / (1 - c)) + (-y' - x' * σ * w - x * g * w - x * σ * w' + S * h) / (1 - c)) * (1 - c) ^ 2 =
      (C * k * β + (-y' - x' * σ * w - x * g * w - x * σ * w' + S * h)) * (1 - c) by field_simp]
    linear_combination k * (1 - c) * I2

end Slow

/-! ## Quantities that are small or change little -/

/-- `f` is at most `M` at `t` and changes at a rate of at most `D` there -/
def Mild (f : ℝ → ℝ) (t M D : ℝ) : Prop := ∃ f', HasDerivAt f f' t ∧ |f'| ≤ D ∧ |f t| ≤ M

namespace Mild
variable {f g : ℝ → ℝ} {t M D N K : ℝ}

theorem mul (hf : Mild f t M D) (hg : Mild g t N K) : Mild (fun s => f s * g s) t (M * N) (D * N + M * K) := by
  obtain ⟨f', h1, h2, h3⟩ := hf
  obtain ⟨g', k1, k2, k3⟩ := hg
  exact ⟨_, h1.mul k1, abs_add_bd (abs_mul_bd h2 k3) (abs_mul_bd h3 k2), abs_mul_bd h3 k3⟩

theorem const_mul {c C : ℝ} (hc : |c| ≤ C) (hf : Mild f t M D) : Mild (fun s => c * f s) t (C * M) (C * D) := by
  obtain ⟨f', h1, h2, h3⟩ := hf
  exact ⟨_, h1.const_mul c, abs_mul_bd hc h2, abs_mul_bd hc h3⟩

theorem mono (hf : Mild f t M D) (hM : M ≤ N) (hD : D ≤ K) : Mild f t N K := by
  obtain ⟨f', h1, h2, h3⟩ := hf
  exact ⟨f', h1, h2.trans hD, h3.trans hM⟩

theorem congr (hf : Mild f t M D) (h : ∀ s, g s = f s) : Mild g t M D := by
  have : g = f := funext h
  rwa [this]

theorem inv {m : ℝ} (hf : Mild f t M D) (hm : 0 < m) (h : m ≤ f t) : Mild (fun s => 1 / f s) t (1 / m) (D / m ^ 2) := by
  obtain ⟨f', h1, h2, h3⟩ := hf
  have h0 : f t ≠ 0 := by linarith
  refine ⟨_, (h1.inv h0).congr_of_eventuallyEq (Eventually.of_forall fun s => by simp [one_div]), ?_, ?_⟩
  · exact abs_div_bd (abs_neg_bd h2) (by positivity) (by gcongr)
  · exact abs_div_bd (by simp) hm h

end Mild

namespace Slow
variable {m : ℝ → Mean} {E : ℝ → ℝ} {t x' y' u' a' h' : ℝ}

theorem turn_bounds (H : Slow m E t x' y' u' a' h') : 0 ≤ turn m E t x' y' u' ∧ turn m E t x' y' u' ≤ 3.34 ∧
    (1 - (m t).ecosE (E t)) * turn m E t x' y' u' ≤ 1.84 ∧ |rate m E t x' y' u'| ≤ 1.84 := by
  obtain ⟨κ, hκ, e1, e2⟩ := H.rate_bounds
  obtain ⟨-, -, -, r1, r2, -, b1, b2, -, -, -⟩ := H.values
  set ρ := 1 - (m t).ecosE (E t)
  set β := Real.sqrt (1 - (m t).eL2)
  obtain ⟨k1, k2⟩ := abs_le.mp hκ
  have hρ0 : 0 < ρ := lt_of_lt_of_le (by norm_num) r1
  have hb0 : 0 ≤ β := le_trans (by norm_num) b1
  have h1 : 0 ≤ 1 + κ := by norm_num at *; linarith
  have h2 : 1 + κ ≤ 1.007 := by norm_num at *; linarith
  refine ⟨?_, ?_, ?_, ?_⟩
  · rw [e2]; positivity
  · rw [e2, div_le_iff₀ (by positivity)]
    calc (1 + κ) * β ≤ 1.007 * 1 := mul_le_mul h2 b2 hb0 (by norm_num)
      _ ≤ 3.34 * 0.55 ^ 2 := by norm_num
      _ ≤ _ := by gcongr
  · rw [e2, show ρ * ((1 + κ) * β / ρ ^ 2) = (1 + κ) * β / ρ by field_simp, div_le_iff₀ hρ0]
    calc (1 + κ) * β ≤ 1.007 * 1 := mul_le_mul h2 b2 hb0 (by norm_num)
      _ ≤ 1.84 * 0.55 := by norm_num
      _ ≤ _ := by gcongr
  · rw [e1]
    refine (abs_div_bd (A := 1.007) (by rw [abs_of_nonneg h1]; exact h2) (by norm_num) r1).trans (by norm_num)

theorem unit (H : Slow m E t x' y' u' a' h') : (m t).sinu (E t) ^ 2 + (m t).cosu (E t) ^ 2 = 1 ∧ |(m t).cosu (E t)| ≤ 1 ∧ |(m t).sinu (E t)| ≤ 1 := by
  obtain ⟨-, -, -, r1, -, -, -, -, -, -, -⟩ := H.values
  have hcs := sinu_sq_add_cosu_sq (m t) (E t) (mul_ne_zero (by linarith [H.axis]) (by norm_num at *; linarith)) (H.ecc.trans (by norm_num))
  exact ⟨hcs, abs_le_one_iff_mul_self_le_one.mpr (by nlinarith [sq_nonneg ((m t).sinu (E t))]),
    abs_le_one_iff_mul_self_le_one.mpr (by nlinarith [sq_nonneg ((m t).cosu (E t))])⟩

theorem sin2u (H : Slow m E t x' y' u' a' h') : Mild (fun s => (m s).sin2u (E s)) t 1 (2 * turn m E t x' y' u' + 0.0224) := by
  obtain ⟨c, d, hc, hd, k1, k2⟩ := H.cos_sin
  obtain ⟨hcs, hC, hS⟩ := H.unit
  obtain ⟨n0, -, -, -⟩ := H.turn_bounds
  set N := turn m E t x' y' u'
  refine ⟨_, ((k2.const_mul 2).mul k1).congr_of_eventuallyEq (Eventually.of_forall fun s => rfl), ?_, ?_⟩
  · set C := (m t).cosu (E t)
    set S := (m t).sinu (E t)
    rw [show 2 * (C * N + d) * C + 2 * S * (-S * N + c) = 2 * ((C ^ 2 - S ^ 2) * N) + 2 * (d * C + S * c) by ring]
    have q1 : |C ^ 2 - S ^ 2| ≤ 1 := by rw [abs_le]; constructor <;> nlinarith [sq_nonneg C, sq_nonneg S]
    have q2 := abs_mul_bd q1 (show |N| ≤ N by rw [abs_of_nonneg n0])
    have q3 := abs_add_bd (abs_mul_bd hd hC) (abs_mul_bd hS hc)
    have q4 := abs_add_bd (abs_mul_bd (show |(2:ℝ)| ≤ 2 by norm_num) q2) (abs_mul_bd (show |(2:ℝ)| ≤ 2 by norm_num) q3)
    refine q4.trans (by norm_num)
  · unfold Mean.sin2u
    rw [abs_le]
    constructor <;> nlinarith [sq_nonneg ((m t).sinu (E t) + (m t).cosu (E t)), sq_nonneg ((m t).sinu (E t) - (m t).cosu (E t))]

theorem cos2u (H : Slow m E t x' y' u' a' h') : Mild (fun s => (m s).cos2u (E s)) t 1 (2 * turn m E t x' y' u' + 0.0224) := by
  obtain ⟨c, d, hc, hd, k1, k2⟩ := H.cos_sin
  obtain ⟨hcs, hC, hS⟩ := H.unit
  obtain ⟨n0, -, -, -⟩ := H.turn_bounds
  set N := turn m E t x' y' u'
  refine ⟨_, ((k2.pow 2).const_mul 2).const_sub 1 |>.congr_of_eventuallyEq (Eventually.of_forall fun s => rfl), ?_, ?_⟩
  · simp only [Nat.cast_ofNat, Nat.reduceSub, pow_one]
    set C := (m t).cosu (E t)
    set S := (m t).sinu (E t)
    rw [show -(2 * (2 * S * (C * N + d))) = -(2 * (2 * (S * C) * N) + 4 * (S * d)) by ring, abs_neg]
    have q1 : |2 * (S * C)| ≤ 1 := by rw [abs_le]; constructor <;> nlinarith [sq_nonneg (C + S), sq_nonneg (C - S)]
    have q2 := abs_mul_bd q1 (show |N| ≤ N by rw [abs_of_nonneg n0])
    have q4 := abs_add_bd (abs_mul_bd (show |(2:ℝ)| ≤ 2 by norm_num) q2) (abs_mul_bd (show |(4:ℝ)| ≤ 4 by norm_num) (abs_mul_bd hS hd))
    refine q4.trans (by norm_num)
  · unfold Mean.cos2u
    rw [abs_le]
    constructor <;> nlinarith [sq_nonneg ((m t).sinu (E t)), sq_nonneg ((m t).cosu (E t))]

theorem beta (H : Slow m E t x' y' u' a' h') : Mild (fun s => Real.sqrt (1 - (m s).eL2)) t 1 0.00072 := by
  obtain ⟨-, -, -, -, -, -, b1, b2, -, -, v3⟩ := H.values
  refine ⟨_, H.hβ, (abs_div_bd (abs_neg_bd v3) (by norm_num : (0:ℝ) < 0.89) b1).trans (by norm_num), ?_⟩
  rwa [abs_of_nonneg (Real.sqrt_nonneg _)]

/-- the inverse of the semi-latus rectum -/
theorem invP (H : Slow m E t x' y' u' a' h') : Mild (fun s => 1 / (m s).pL) t 1.0021 0.00181 := by
  obtain ⟨-, -, -, -, -, -, -, -, -, -, v3⟩ := H.values
  have hp := H.ha.mul H.heL
  have ha1 := H.axis
  have hp1 := H.per
  have hp0 : (m t).pL ≠ 0 := by norm_num at *; linarith
  have hel : (m t).pL = (m t).a * (1 - (m t).eL2) := rfl
  have hg : 0.797 ≤ 1 - (m t).eL2 := by have := H.ecc; norm_num at *; linarith
  refine ⟨_, (hp.inv hp0).congr_of_eventuallyEq (Eventually.of_forall fun s => by simp [one_div, Mean.pL]), ?_, ?_⟩
  · have k1 : |a' * (1 - (m t).eL2) + (m t).a * -(2 * ((m t).axN * x' + (m t).ayN * y'))| ≤ 0.0018 * (m t).pL := by
      have h0 : |1 - (m t).eL2| ≤ 1 - (m t).eL2 := by rw [abs_of_nonneg]; norm_num at *; linarith
      refine (abs_add_bd (abs_mul_bd H.ba h0) (abs_mul_bd (show |(m t).a| ≤ (m t).a by rw [abs_of_nonneg]; linarith)
        (abs_neg_bd (abs_mul_bd (show |(2:ℝ)| ≤ 2 by norm_num) v3)))).trans ?_
      rw [hel]
      have : (m t).a * 0.797 ≤ (m t).a * (1 - (m t).eL2) := by gcongr
      norm_num at *; linarith
    have k2 : |-(a' * (1 - (m t).eL2) + (m t).a * -(2 * ((m t).axN * x' + (m t).ayN * y'))) / (m t).pL ^ 2| ≤ 0.0018 / (m t).pL := by
      rw [abs_div, abs_neg, abs_of_nonneg (sq_nonneg (m t).pL), div_le_div_iff₀ (by positivity) (by norm_num at *; linarith)]
      have : 0 < (m t).pL := by norm_num at *; linarith
      nlinarith
    refine k2.trans ?_
    rw [div_le_iff₀ (by norm_num at *; linarith)]
    norm_num at *; linarith
  · exact (abs_div_bd (A := 1) (by simp) (by norm_num) hp1).trans (by norm_num)

theorem invA (H : Slow m E t x' y' u' a' h') : Mild (fun s => 1 / (m s).a) t 1 0.0001 := by
  have ha1 := H.axis
  have ha0 : (m t).a ≠ 0 := by linarith
  refine ⟨_, (H.ha.inv ha0).congr_of_eventuallyEq (Eventually.of_forall fun s => by simp [one_div]), ?_, ?_⟩
  · rw [abs_div, abs_neg, abs_of_nonneg (sq_nonneg (m t).a), div_le_iff₀ (by positivity)]
    have := H.ba
    nlinarith
  · rw [abs_div, abs_one, abs_of_pos (by linarith), div_le_one (by linarith)]; exact ha1

theorem k2_small : |k2| ≤ 0.000542 := by unfold k2 j2; rw [abs_of_pos] <;> norm_num

theorem θ_const (H : Slow m E t x' y' u' a' h') (s : ℝ) : (m s).θ = (m t).θ := by unfold Mean.θ; rw [H.inc s]

theorem θ_sq (M : Mean) : 0 ≤ M.θ ^ 2 ∧ M.θ ^ 2 ≤ 1 ∧ |M.θ| ≤ 1 := by
  unfold Mean.θ; exact ⟨sq_nonneg _, Real.cos_sq_le_one _, Real.abs_cos_le_one _⟩

/-- `k2 / pL²` times a constant -/
theorem coef (H : Slow m E t x' y' u' a' h') {c : ℝ} (hc : |c| ≤ 1.5) :
    Mild (fun s => c * k2 / (m s).pL ^ 2) t 0.000817 0.000003 := by
  have h := (H.invP.mul H.invP).const_mul (abs_mul_bd hc k2_small)
  exact (h.congr fun s => by ring).mono (by norm_num) (by norm_num)

/-- one of the short-period terms of the angles -/
theorem term (H : Slow m E t x' y' u' a' h') {c : ℝ} (hc : |c| ≤ 1.5) {f : ℝ → ℝ} (hf : Mild f t 1 (2 * turn m E t x' y' u' + 0.0224)) :
    Mild (fun s => c * k2 / (m s).pL ^ 2 * f s) t 0.000817 (0.00164 * turn m E t x' y' u' + 0.00003) := by
  obtain ⟨n0, -, -, -⟩ := H.turn_bounds
  exact ((H.coef hc).mul hf).mono (by norm_num) (by norm_num at *; linarith)

theorem du (H : Slow m E t x' y' u' a' h') :
    Mild (fun s => -(k2 / (4 * (m s).pL ^ 2) * (7 * (m s).θ ^ 2 - 1) * (m s).sin2u (E s))) t 0.000817 (0.00164 * turn m E t x' y' u' + 0.00003) := by
  obtain ⟨t1, t2, -⟩ := θ_sq (m t)
  refine (H.term (c := -(7 * (m t).θ ^ 2 - 1) / 4) ?_ H.sin2u).congr fun s => by rw [H.θ_const s]; ring
  rw [abs_le]; constructor <;> (norm_num; linarith)

theorem dΩ (H : Slow m E t x' y' u' a' h') :
    Mild (fun s => 3 * k2 * (m s).θ / (2 * (m s).pL ^ 2) * (m s).sin2u (E s)) t 0.000817 (0.00164 * turn m E t x' y' u' + 0.00003) := by
  obtain ⟨-, -, t3⟩ := θ_sq (m t)
  refine (H.term (c := 3 * (m t).θ / 2) ?_ H.sin2u).congr fun s => by rw [H.θ_const s]; ring
  obtain ⟨t1, t2⟩ := abs_le.mp t3
  rw [abs_le]; constructor <;> (norm_num; linarith)

theorem di (H : Slow m E t x' y' u' a' h') :
    Mild (fun s => 3 * k2 * (m s).θ / (2 * (m s).pL ^ 2) * Real.sin (m s).i * (m s).cos2u (E s)) t 0.000817
      (0.00164 * turn m E t x' y' u' + 0.00003) := by
  obtain ⟨-, -, t3⟩ := θ_sq (m t)
  refine (H.term (c := 3 / 2 * ((m t).θ * Real.sin (m t).i)) ?_ H.cos2u).congr fun s => by rw [H.θ_const s, H.inc s]; ring
  exact (abs_mul_bd (show |(3 / 2 : ℝ)| ≤ 1.5 by norm_num) (abs_mul_bd t3 (Real.abs_sin_le_one _))).trans (by norm_num)

end Slow

/-- the argument of latitude has the sine and cosine given -/
theorem cos_u_sin_u (M : Mean) (e : ℝ) (hr : M.r e ≠ 0) (he : M.eL2 ≤ 1) : Real.cos (M.u e) = M.cosu e ∧ Real.sin (M.u e) = M.sinu e := by
  have h := sinu_sq_add_cosu_sq M e hr he
  have hn : ‖(⟨M.cosu e, M.sinu e⟩ : ℂ)‖ = 1 := by
    rw [Complex.norm_def, Complex.normSq_mk, show M.cosu e * M.cosu e + M.sinu e * M.sinu e = 1 by linarith, Real.sqrt_one]
  have h1 := Complex.norm_mul_cos_arg (⟨M.cosu e, M.sinu e⟩ : ℂ)
  have h2 := Complex.norm_mul_sin_arg (⟨M.cosu e, M.sinu e⟩ : ℂ)
  rw [hn, one_mul] at h1 h2
  exact ⟨h1, h2⟩

namespace Slow
variable {m : ℝ → Mean} {E : ℝ → ℝ} {t x' y' u' a' h' : ℝ}

/-- sine and cosine of the perturbed argument of latitude: they turn at the rate `turn + δ` -/
theorem uk_rate (H : Slow m E t x' y' u' a' h') :
    ∃ δ c d, |δ| ≤ 0.00164 * turn m E t x' y' u' + 0.00003 ∧ |c| ≤ 0.00561 ∧ |d| ≤ 0.00561 ∧
      HasDerivAt (fun s => Real.cos ((m s).uk (E s))) (-Real.sin ((m t).uk (E t)) * (turn m E t x' y' u' + δ) + c) t ∧
      HasDerivAt (fun s => Real.sin ((m s).uk (E s))) (Real.cos ((m t).uk (E t)) * (turn m E t x' y' u' + δ) + d) t := by
  obtain ⟨c, d, hc, hd, k1, k2⟩ := H.cos_sin
  obtain ⟨δ, hδ, bδ, bδ0⟩ := H.du
  obtain ⟨-, -, -, r1, -, -, -, -, -, -, -⟩ := H.values
  have ha0 : (m t).a ≠ 0 := by have := H.axis; linarith
  have hane : ∀ᶠ s in 𝓝 t, (m s).a ≠ 0 := H.ha.continuousAt.eventually_ne ha0
  have hρne : ∀ᶠ s in 𝓝 t, 1 - (m s).ecosE (E s) ≠ 0 := H.hρ.continuousAt.eventually_ne (by norm_num at *; linarith)
  have hel : ∀ᶠ s in 𝓝 t, 0 < 1 - (m s).eL2 :=
    continuousAt_const.eventually_lt H.heL.continuousAt (by have := H.ecc; norm_num at *; linarith)
  set f : ℝ → ℝ := fun s => -(Spec.R3.k2 / (4 * (m s).pL ^ 2) * (7 * (m s).θ ^ 2 - 1) * (m s).sin2u (E s)) with hf
  have huk : ∀ s, (m s).uk (E s) = (m s).u (E s) + f s := fun s => by rw [hf]; unfold Mean.uk; ring
  have hev : ∀ᶠ s in 𝓝 t, Real.cos ((m s).uk (E s)) = (m s).cosu (E s) * Real.cos (f s) - (m s).sinu (E s) * Real.sin (f s) ∧
      Real.sin ((m s).uk (E s)) = (m s).sinu (E s) * Real.cos (f s) + (m s).cosu (E s) * Real.sin (f s) := by
    filter_upwards [hane, hρne, hel] with s h1 h2 h3
    obtain ⟨e1, e2⟩ := cos_u_sin_u (m s) (E s) (mul_ne_zero h1 h2) (by linarith)
    rw [huk s, Real.cos_add, Real.sin_add, e1, e2]
    exact ⟨rfl, rfl⟩
  obtain ⟨ec, es⟩ := hev.self_of_nhds
  have hsd : |Real.sin (f t)| ≤ 0.000817 := (Real.abs_sin_le_abs).trans bδ0
  have hcd := Real.abs_cos_le_one (f t)
  have q1 := abs_sub_bd (abs_mul_bd hc hcd) (abs_mul_bd hd hsd)
  have q2 := abs_add_bd (abs_mul_bd hd hcd) (abs_mul_bd hc hsd)
  refine ⟨δ, _, _, bδ, q1.trans (by norm_num), q2.trans (by norm_num),
    (((k1.mul hδ.cos).sub (k2.mul hδ.sin)).congr_of_eventuallyEq (hev.mono fun s h => h.1)).congr_deriv ?_,
    (((k2.mul hδ.cos).add (k1.mul hδ.sin)).congr_of_eventuallyEq (hev.mono fun s h => h.2)).congr_deriv ?_⟩
  · rw [es]; ring
  · rw [ec]; ring

/-- the unit vectors turn in the orbital plane, up to small terms -/
theorem frame_rate (H : Slow m E t x' y' u' a' h') :
    ∃ δ, |δ| ≤ 0.00164 * turn m E t x' y' u' + 0.00003 ∧ ∀ j : Fin 3,
      (∃ d, |d| ≤ 0.01302 + 2 * (0.00164 * turn m E t x' y' u' + 0.00003) ∧
        HasDerivAt (fun s => (m s).Uvec (E s) j) ((turn m E t x' y' u' + δ) * (m t).Vvec (E t) j + d) t) ∧
      (∃ d, |d| ≤ 0.01302 + 2 * (0.00164 * turn m E t x' y' u' + 0.00003) ∧
        HasDerivAt (fun s => (m s).Vvec (E s) j) (-(turn m E t x' y' u' + δ) * (m t).Uvec (E t) j + d) t) := by
  obtain ⟨δ, c, d, bδ, bc, bd, hcu, hsu⟩ := H.uk_rate
  obtain ⟨o', ho, bo, -⟩ := H.dΩ
  obtain ⟨i', hi, bi, -⟩ := H.di
  have hΩ : HasDerivAt (fun s => (m s).Ωk (E s)) (h' + o') t := H.hh.add ho
  have hI : HasDerivAt (fun s => (m s).ik (E s)) i' t := by
    have := hi.const_add ((m t).i)
    refine this.congr_of_eventuallyEq (Eventually.of_forall fun s => ?_)
    show (m s).i + 3 * k2 * (m s).θ / (2 * (m s).pL ^ 2) * Real.sin (m s).i * (m s).cos2u (E s) =
      (m t).i + 3 * k2 * (m s).θ / (2 * (m s).pL ^ 2) * Real.sin (m s).i * (m s).cos2u (E s)
    rw [H.inc s]
  set q := 0.00164 * turn m E t x' y' u' + 0.00003 with hq
  have bo' : |h' + o'| ≤ 0.0018 + q := abs_add_bd H.bh bo
  set N := turn m E t x' y' u' + δ
  refine ⟨δ, bδ, ?_⟩
  have zΩ := Real.sin_sq_add_cos_sq ((m t).Ωk (E t))
  have zi := Real.sin_sq_add_cos_sq ((m t).ik (E t))
  have zu := Real.sin_sq_add_cos_sq ((m t).uk (E t))
  have sΩ := Real.abs_sin_le_one ((m t).Ωk (E t))
  have cΩ := Real.abs_cos_le_one ((m t).Ωk (E t))
  have si := Real.abs_sin_le_one ((m t).ik (E t))
  have ci := Real.abs_cos_le_one ((m t).ik (E t))
  have su := Real.abs_sin_le_one ((m t).uk (E t))
  have cu := Real.abs_cos_le_one ((m t).uk (E t))
  -- products of two sines and cosines with the unit sums
  have two : ∀ {a b c d e : ℝ}, a ^ 2 + b ^ 2 = 1 → c ^ 2 + d ^ 2 = 1 → |e| ≤ 1 → |a * (e * c) + b * d| ≤ 1 := by
    intro a b c d e h1 h2 he
    have := plane_cauchy (x := a) (y := b) (p := e * c) (q := -d) (e := 1) (d := 1) (by rw [h1]; norm_num) (by norm_num) (by
      have : e ^ 2 ≤ 1 := (sq_le_one_iff_abs_le_one e).mpr he
      nlinarith [sq_nonneg c]) (by norm_num)
    rw [mul_neg, sub_neg_eq_add] at this
    linarith
  have l2 : ∀ {a b z : ℝ}, |a| ≤ 1 → |b| ≤ 1 → |z| ≤ 0.00561 → |a * b * z| ≤ 0.00561 := fun h1 h2 h3 => by
    have := abs_mul_bd (abs_mul_bd h1 h2) h3; linarith
  have l1 : ∀ {a z : ℝ}, |a| ≤ 1 → |z| ≤ 0.00561 → |a * z| ≤ 0.00561 := fun h1 h3 => by
    have := abs_mul_bd h1 h3; linarith
  have n3 : ∀ {a b c : ℝ}, |a| ≤ 1 → |b| ≤ 1 → |c| ≤ 1 → |a * b * c| ≤ 1 := fun h1 h2 h3 => by
    have := abs_mul_bd (abs_mul_bd h1 h2) h3; linarith
  have n2 : ∀ {a b : ℝ}, |a| ≤ 1 → |b| ≤ 1 → |a * b| ≤ 1 := fun h1 h2 => by
    have := abs_mul_bd h1 h2; linarith
  have fin : ∀ {z1 z2 z3 z4 : ℝ}, |z1| ≤ 1 → |z2| ≤ 1 → |z3| ≤ 0.00561 → |z4| ≤ 0.00561 →
      |(h' + o') * z1 + i' * z2 + z3 + z4| ≤ 0.01302 + 2 * q := fun h1 h2 h3 h4 => by
    have := abs_add_bd (abs_add_bd (abs_add_bd (abs_mul_bd bo' h1) (abs_mul_bd bi h2)) h3) h4
    norm_num at *; linarith
  have hsΩ := hΩ.sin
  have hcΩ := hΩ.cos
  have hsi := hI.sin
  have hci := hI.cos
  have zu' : Real.cos ((m t).uk (E t)) ^ 2 + (-Real.sin ((m t).uk (E t))) ^ 2 = 1 := by rw [neg_sq]; linarith
  have zΩ' : Real.cos ((m t).Ωk (E t)) ^ 2 + Real.sin ((m t).Ωk (E t)) ^ 2 = 1 := by linarith
  have zΩ'' : (-Real.sin ((m t).Ωk (E t))) ^ 2 + Real.cos ((m t).Ωk (E t)) ^ 2 = 1 := by rw [neg_sq]; linarith
  have n0 : ∀ {a : ℝ}, |a| ≤ 1 → |-a| ≤ 1 := fun h => by rwa [abs_neg]
  intro j
  fin_cases j
  · refine ⟨⟨_, fin (z1 := -(Real.cos ((m t).Ωk (E t)) * (Real.cos ((m t).ik (E t)) * Real.sin ((m t).uk (E t))) + Real.sin ((m t).Ωk (E t)) * Real.cos ((m t).uk (E t)))) (z2 := Real.sin ((m t).Ωk (E t)) * Real.sin ((m t).ik (E t)) * Real.sin ((m t).uk (E t))) (z3 := (-Real.sin ((m t).Ωk (E t))) * Real.cos ((m t).ik (E t)) * d) (z4 := Real.cos ((m t).Ωk (E t)) * c)
        (n0 (two zΩ' zu ci)) (n3 sΩ si su) (l2 (n0 sΩ) ci bd) (l1 cΩ bc), ?_⟩,
      ⟨_, fin (z1 := -(Real.cos ((m t).Ωk (E t)) * (Real.cos ((m t).ik (E t)) * Real.cos ((m t).uk (E t))) + Real.sin ((m t).Ωk (E t)) * -Real.sin ((m t).uk (E t)))) (z2 := Real.sin ((m t).Ωk (E t)) * Real.sin ((m t).ik (E t)) * Real.cos ((m t).uk (E t))) (z3 := (-Real.sin ((m t).Ωk (E t))) * Real.cos ((m t).ik (E t)) * c) (z4 := (-Real.cos ((m t).Ωk (E t))) * d)
        (n0 (two zΩ' zu' ci)) (n3 sΩ si cu) (l2 (n0 sΩ) ci bc) (l1 (n0 cΩ) bd), ?_⟩⟩
    · have h := (((hsΩ.neg.mul hci).mul hsu).add (hcΩ.mul hcu))
      refine (h.congr_of_eventuallyEq (Eventually.of_forall fun s => rfl)).congr_deriv ?_
      simp only [Pi.mul_apply, Pi.neg_apply, Mean.Vvec, Mean.Uvec, Matrix.cons_val_zero, Matrix.cons_val_one, Matrix.cons_val, Fin.zero_eta, Fin.mk_one, Fin.reduceFinMk]
      ring
    · have h := (((hsΩ.neg.mul hci).mul hcu).sub (hcΩ.mul hsu))
      refine (h.congr_of_eventuallyEq (Eventually.of_forall fun s => rfl)).congr_deriv ?_
      simp only [Pi.mul_apply, Pi.neg_apply, Mean.Vvec, Mean.Uvec, Matrix.cons_val_zero, Matrix.cons_val_one, Matrix.cons_val, Fin.zero_eta, Fin.mk_one, Fin.reduceFinMk]
      ring
  · refine ⟨⟨_, fin (z1 := (-Real.sin ((m t).Ωk (E t))) * (Real.cos ((m t).ik (E t)) * Real.sin ((m t).uk (E t))) + Real.cos ((m t).Ωk (E t)) * Real.cos ((m t).uk (E t))) (z2 := (-Real.cos ((m t).Ωk (E t))) * Real.sin ((m t).ik (E t)) * Real.sin ((m t).uk (E t))) (z3 := Real.cos ((m t).Ωk (E t)) * Real.cos ((m t).ik (E t)) * d) (z4 := Real.sin ((m t).Ωk (E t)) * c)
        (two zΩ'' zu ci) (n3 (n0 cΩ) si su) (l2 cΩ ci bd) (l1 sΩ bc), ?_⟩,
      ⟨_, fin (z1 := (-Real.sin ((m t).Ωk (E t))) * (Real.cos ((m t).ik (E t)) * Real.cos ((m t).uk (E t))) + Real.cos ((m t).Ωk (E t)) * -Real.sin ((m t).uk (E t))) (z2 := (-Real.cos ((m t).Ωk (E t))) * Real.sin ((m t).ik (E t)) * Real.cos ((m t).uk (E t))) (z3 := Real.cos ((m t).Ωk (E t)) * Real.cos ((m t).ik (E t)) * c) (z4 := (-Real.sin ((m t).Ωk (E t))) * d)
        (two zΩ'' zu' ci) (n3 (n0 cΩ) si cu) (l2 cΩ ci bc) (l1 (n0 sΩ) bd), ?_⟩⟩
    · have h := (((hcΩ.mul hci).mul hsu).add (hsΩ.mul hcu))
      refine (h.congr_of_eventuallyEq (Eventually.of_forall fun s => rfl)).congr_deriv ?_
      simp only [Pi.mul_apply, Pi.neg_apply, Mean.Vvec, Mean.Uvec, Matrix.cons_val_zero, Matrix.cons_val_one, Matrix.cons_val, Fin.zero_eta, Fin.mk_one, Fin.reduceFinMk]
      ring
    · have h := (((hcΩ.mul hci).mul hcu).sub (hsΩ.mul hsu))
      refine (h.congr_of_eventuallyEq (Eventually.of_forall fun s => rfl)).congr_deriv ?_
      simp only [Pi.mul_apply, Pi.neg_apply, Mean.Vvec, Mean.Uvec, Matrix.cons_val_zero, Matrix.cons_val_one, Matrix.cons_val, Fin.zero_eta, Fin.mk_one, Fin.reduceFinMk]
      ring
  · refine ⟨⟨_, fin (z1 := 0) (z2 := Real.cos ((m t).ik (E t)) * Real.sin ((m t).uk (E t))) (z3 := 0) (z4 := Real.sin ((m t).ik (E t)) * d)
        (by simp) (n2 ci su) (by norm_num) (l1 si bd), ?_⟩,
      ⟨_, fin (z1 := 0) (z2 := Real.cos ((m t).ik (E t)) * Real.cos ((m t).uk (E t))) (z3 := 0) (z4 := Real.sin ((m t).ik (E t)) * c)
        (by simp) (n2 ci cu) (by norm_num) (l1 si bc), ?_⟩⟩
    · have h := hsi.mul hsu
      refine (h.congr_of_eventuallyEq (Eventually.of_forall fun s => rfl)).congr_deriv ?_
      simp only [Pi.mul_apply, Pi.neg_apply, Mean.Vvec, Mean.Uvec, Matrix.cons_val_zero, Matrix.cons_val_one, Matrix.cons_val, Fin.zero_eta, Fin.mk_one, Fin.reduceFinMk]
      ring
    · have h := hsi.mul hcu
      refine (h.congr_of_eventuallyEq (Eventually.of_forall fun s => rfl)).congr_deriv ?_
      simp only [Pi.mul_apply, Pi.neg_apply, Mean.Vvec, Mean.Uvec, Matrix.cons_val_zero, Matrix.cons_val_one, Matrix.cons_val, Fin.zero_eta, Fin.mk_one, Fin.reduceFinMk]
      ring

end Slow

/-- components of a unit vector -/
theorem frame_le_one (M : Mean) (e : ℝ) (j : Fin 3) : |M.Uvec e j| ≤ 1 ∧ |M.Vvec e j| ≤ 1 := by
  have hU : M.Uvec e 0 ^ 2 + M.Uvec e 1 ^ 2 + M.Uvec e 2 ^ 2 = 1 ∧ M.Vvec e 0 ^ 2 + M.Vvec e 1 ^ 2 + M.Vvec e 2 ^ 2 = 1 := by
    unfold Mean.Uvec Mean.Vvec
    simp only [Matrix.cons_val_zero, Matrix.cons_val_one, Matrix.cons_val]
    generalize M.Ωk e = a, M.ik e = b, M.uk e = c
    have ea := Real.sin_sq_add_cos_sq a
    have eb := Real.sin_sq_add_cos_sq b
    have ec := Real.sin_sq_add_cos_sq c
    generalize Real.sin a = sa, Real.cos a = ca, Real.sin b = sb, Real.cos b = cb, Real.sin c = sc, Real.cos c = cc at *
    constructor
    · linear_combination (cb ^ 2 * sc ^ 2 + cc ^ 2) * ea + sc ^ 2 * eb + ec
    · linear_combination (cb ^ 2 * cc ^ 2 + sc ^ 2) * ea + cc ^ 2 * eb + ec
  obtain ⟨u, v⟩ := hU
  have key : ∀ f : Fin 3 → ℝ, f 0 ^ 2 + f 1 ^ 2 + f 2 ^ 2 = 1 → |f j| ≤ 1 := by
    intro f hf
    rw [← sq_le_one_iff_abs_le_one]
    fin_cases j <;> simp only [Fin.zero_eta, Fin.mk_one, Fin.reduceFinMk] <;>
      nlinarith [sq_nonneg (f 0), sq_nonneg (f 1), sq_nonneg (f 2)]
  exact ⟨key _ u, key _ v⟩

namespace Slow
variable {m : ℝ → Mean} {E : ℝ → ℝ} {t x' y' u' a' h' : ℝ}

theorem n_pos (H : Slow m E t x' y' u' a' h') : 0 < (m t).n := by
  have := H.axis
  unfold Mean.n ke; positivity

/-- the two velocity components in units of the mean motion -/
theorem speeds (H : Slow m E t x' y' u' a' h') :
    ∃ p q, |p| ≤ 0.000545 * (m t).a ∧ |q| ≤ 0.00164 * (m t).a ∧
      (m t).rdotk (E t) = (m t).n * ((m t).a * ((m t).esinE (E t) / (1 - (m t).ecosE (E t))) + p) ∧
      (m t).rfdotk (E t) = (m t).n * ((m t).a * (Real.sqrt (1 - (m t).eL2) / (1 - (m t).ecosE (E t))) + q) := by
  obtain ⟨-, -, -, r1, -, -, -, -, -, -, -⟩ := H.values
  obtain ⟨-, -, -, bs⟩ := H.sin2u
  obtain ⟨-, -, -, bc⟩ := H.cos2u
  obtain ⟨t1, t2, -⟩ := θ_sq (m t)
  have ha1 := H.axis
  have ha0 : 0 < (m t).a := by linarith
  have hr0 : 0 < 1 - (m t).ecosE (E t) := lt_of_lt_of_le (by norm_num) r1
  have hk := k2_small
  have hkp : |k2 / (m t).pL| ≤ 0.000542 / 0.998 := abs_div_bd hk (by norm_num) H.per
  have hsa : ke * Real.sqrt (m t).a = (m t).n * (m t).a ^ 2 := by
    unfold Mean.n
    have h2 : (m t).a ^ (3 / 2 : ℝ) * Real.sqrt (m t).a = (m t).a ^ 2 := by
      rw [Real.sqrt_eq_rpow, ← Real.rpow_add ha0]; norm_num
    have h3 : (m t).a ^ (3 / 2 : ℝ) ≠ 0 := (Real.rpow_pos_of_pos ha0 _).ne'
    rw [div_mul_eq_mul_div, eq_div_iff h3, ← h2]; ring
  have hsp : ke * Real.sqrt (m t).pL = (m t).n * (m t).a ^ 2 * Real.sqrt (1 - (m t).eL2) := by
    rw [← hsa]; unfold Mean.pL; rw [Real.sqrt_mul ha0.le]; ring
  refine ⟨-(k2 / (m t).pL * ((1 - (m t).θ ^ 2) * (m t).sin2u (E t))),
    k2 / (m t).pL * ((1 - (m t).θ ^ 2) * (m t).cos2u (E t) - 3 / 2 * (1 - 3 * (m t).θ ^ 2)), ?_, ?_, ?_, ?_⟩
  · have h1 : |1 - (m t).θ ^ 2| ≤ 1 := by rw [abs_le]; constructor <;> linarith
    have := abs_neg_bd (abs_mul_bd hkp (abs_mul_bd h1 bs))
    norm_num at *; linarith
  · obtain ⟨c1, c2⟩ := abs_le.mp bc
    have h1 : |(1 - (m t).θ ^ 2) * (m t).cos2u (E t) - 3 / 2 * (1 - 3 * (m t).θ ^ 2)| ≤ 3 := by
      rw [abs_le]; constructor <;> nlinarith
    have := abs_mul_bd hkp h1
    norm_num at *; linarith
  · unfold Mean.rdotk Mean.rdot Mean.r
    rw [hsa]; field_simp; ring
  · unfold Mean.rfdotk Mean.rfdot Mean.r
    rw [hsp]; field_simp

set_option maxHeartbeats 1000000 in
/-- The position changes at the rate given by the velocity, up to 6 % of the mean orbital speed in each component. -/
theorem position_rate (H : Slow m E t x' y' u' a' h') (j : Fin 3) :
    ∃ p', HasDerivAt (fun s => (m s).positionKm (E s) j) p' t ∧
      |p' * (m t).n / 60 - (m t).velocityKmS (E t) j| ≤ 0.06 * ((m t).n * (m t).a * kmPerRadius / 60) := by
  obtain ⟨δ, bδ, hfr⟩ := H.frame_rate
  obtain ⟨⟨d, bd, hU⟩, -⟩ := hfr j
  obtain ⟨-, -, vs, r1, r2, -, b1, b2, v1, -, -⟩ := H.values
  obtain ⟨κ, hκ, ek, eN⟩ := H.rate_bounds
  obtain ⟨n0, n1, n2, n3⟩ := H.turn_bounds
  obtain ⟨p, q, bp, bq, hrd, hrf⟩ := H.speeds
  obtain ⟨U1, V1⟩ := frame_le_one (m t) (E t) j
  have hn := H.n_pos
  have ha1 := H.axis
  have ha0 : 0 < (m t).a := by linarith
  obtain ⟨t1, t2, -⟩ := θ_sq (m t)
  -- the factor of the distance
  have hG : Mild (fun s => 3 / 2 * k2 * Real.sqrt (1 - (m s).eL2) / (m s).pL ^ 2 * (3 * (m s).θ ^ 2 - 1)) t 0.00164 0.0000073 := by
    have h := ((H.coef (c := 3 / 4 * (3 * (m t).θ ^ 2 - 1)) (by rw [abs_le]; constructor <;> (norm_num; linarith))).mul H.beta).const_mul
      (show |(2:ℝ)| ≤ 2 by norm_num)
    exact (h.congr fun s => by rw [H.θ_const s]; ring).mono (by norm_num) (by norm_num)
  have hHc : Mild (fun s => k2 / (2 * (m s).pL) * (1 - (m s).θ ^ 2) * (m s).cos2u (E s)) t 0.000272 0.00184 := by
    have h := (H.invP.const_mul (abs_mul_bd (show |(1 - (m t).θ ^ 2) / 2| ≤ 0.5 by rw [abs_le]; constructor <;> (norm_num; linarith)) k2_small)).mul H.cos2u
    refine (h.congr fun s => by rw [H.θ_const s]; ring).mono (by norm_num) ?_
    norm_num at *; linarith
  obtain ⟨G', hG', bG', bG⟩ := hG
  obtain ⟨H', hH', bH', bH⟩ := hHc
  have hrk : HasDerivAt (fun s => (m s).rk (E s)) _ t := ((H.ha.mul H.hρ).mul (hG'.const_sub 1)).add hH'
  have hpos := (hrk.mul hU).mul_const kmPerRadius
  refine ⟨_, hpos, ?_⟩
  have hR : (0:ℝ) < kmPerRadius := by unfold kmPerRadius; norm_num
  have hvel : (m t).velocityKmS (E t) j = ((m t).rdotk (E t) * (m t).Uvec (E t) j + (m t).rfdotk (E t) * (m t).Vvec (E t) j) * (kmPerRadius / 60) := rfl
  have hrkt : (m t).rk (E t) = (m t).a * (1 - (m t).ecosE (E t)) * (1 - 3 / 2 * k2 * Real.sqrt (1 - (m t).eL2) / (m t).pL ^ 2 * (3 * (m t).θ ^ 2 - 1)) +
      k2 / (2 * (m t).pL) * (1 - (m t).θ ^ 2) * (m t).cos2u (E t) := rfl
  rw [hvel, hrd, hrf, hrkt]
  simp only [Pi.mul_apply]
  set G := 3 / 2 * k2 * Real.sqrt (1 - (m t).eL2) / (m t).pL ^ 2 * (3 * (m t).θ ^ 2 - 1)
  set Hc := k2 / (2 * (m t).pL) * (1 - (m t).θ ^ 2) * (m t).cos2u (E t)
  set N := turn m E t x' y' u'
  set k := rate m E t x' y' u'
  set ρ := 1 - (m t).ecosE (E t)
  set σ := (m t).esinE (E t)
  set β := Real.sqrt (1 - (m t).eL2)
  set a := (m t).a
  set n := (m t).n
  set U := (m t).Uvec (E t) j
  set V := (m t).Vvec (E t) j
  set g := x' * Real.cos (E t) + y' * Real.sin (E t)
  have hρ0 : 0 < ρ := lt_of_lt_of_le (by norm_num) r1
  -- radial part
  have R1 : |(a' * ρ + a * (σ * k - g)) * (1 - G) + a * ρ * -G' + H' - (a * (σ / ρ) + p)| ≤ 0.0113 * a := by
    have e1 : (a' * ρ + a * (σ * k - g)) * (1 - G) + a * ρ * -G' + H' - (a * (σ / ρ) + p) =
        a' * ρ * (1 - G) + a * (-g * (1 - G)) + a * (-(σ * k * G)) + a * (σ * (κ / ρ)) + a * (-(ρ * G')) + H' - p := by
      have : k = 1 / ρ + κ / ρ := by rw [ek]; ring
      rw [this]; ring
    have ba : |a| ≤ a := by rw [abs_of_pos ha0]
    have bρ : |ρ| ≤ 1.45 := by rw [abs_of_pos hρ0]; exact r2
    have b1G : |1 - G| ≤ 1.00164 := (abs_sub_bd (A := 1) (by simp) bG).trans (by norm_num)
    rw [e1]
    refine (abs_sub_bd (abs_add_bd (abs_add_bd (abs_add_bd (abs_add_bd (abs_add_bd (abs_mul_bd (abs_mul_bd H.ba bρ) b1G) (abs_mul_bd ba (abs_mul_bd (abs_neg_bd v1) b1G)))
      (abs_mul_bd ba (abs_neg_bd (abs_mul_bd (abs_mul_bd vs n3) bG)))) (abs_mul_bd ba (abs_mul_bd vs (abs_div_bd hκ (by norm_num) r1))))
      (abs_mul_bd ba (abs_neg_bd (abs_mul_bd bρ bG')))) bH') bp).trans ?_
    norm_num at *; linarith
  -- transverse part
  have T1 : |(a * ρ * (1 - G) + Hc) * (N + δ) - (a * (β / ρ) + q)| ≤ 0.0216 * a := by
    have e1 : (a * ρ * (1 - G) + Hc) * (N + δ) - (a * (β / ρ) + q) =
        a * (κ * (β / ρ)) + a * (-(ρ * N * G)) + a * (ρ * δ * (1 - G)) + Hc * (N + δ) - q := by
      have : ρ * N = β / ρ + κ * (β / ρ) := by rw [eN]; field_simp
      linear_combination a * this
    have ba : |a| ≤ a := by rw [abs_of_pos ha0]
    have b1G : |1 - G| ≤ 1.00164 := (abs_sub_bd (A := 1) (by simp) bG).trans (by norm_num)
    have bβ : |β / ρ| ≤ 1 / 0.55 := abs_div_bd (by rw [abs_of_nonneg (Real.sqrt_nonneg _)]; exact b2) (by norm_num) r1
    have bN : |ρ * N| ≤ 1.84 := by rw [abs_of_nonneg (by positivity)]; exact n2
    have bρδ : |ρ * δ| ≤ 0.00307 := by
      rw [abs_mul, abs_of_pos hρ0]
      calc ρ * |δ| ≤ ρ * (0.00164 * N + 0.00003) := by gcongr
        _ = 0.00164 * (ρ * N) + 0.00003 * ρ := by ring
        _ ≤ 0.00164 * 1.84 + 0.00003 * 1.45 := by gcongr
        _ ≤ _ := by norm_num
    have bNδ : |N + δ| ≤ 3.35 := by
      refine (abs_add_bd (A := 3.34) (by rw [abs_of_nonneg n0]; exact n1) bδ).trans ?_
      norm_num at *; linarith
    rw [e1]
    refine (abs_sub_bd (abs_add_bd (abs_add_bd (abs_add_bd (abs_mul_bd ba (abs_mul_bd hκ bβ)) (abs_mul_bd ba (abs_neg_bd (abs_mul_bd bN bG))))
      (abs_mul_bd ba (abs_mul_bd bρδ b1G))) (abs_mul_bd bH bNδ)) bq).trans ?_
    norm_num at *; linarith
  -- the rest
  have D1 : |(a * ρ * (1 - G) + Hc) * d| ≤ 0.0254 * a := by
    have b1G : |1 - G| ≤ 1.00164 := (abs_sub_bd (A := 1) (by simp) bG).trans (by norm_num)
    have b0 : |a * ρ| ≤ a * ρ := by rw [abs_of_nonneg (by positivity)]
    refine (abs_mul_bd (abs_add_bd (abs_mul_bd b0 b1G) bH) bd).trans ?_
    have x1 : a * ρ * N ≤ a * 1.84 := by rw [mul_assoc]; gcongr
    have x2 : a * ρ ≤ a * 1.45 := by gcongr
    have x3 : N ≤ 3.34 * a := by norm_num at *; linarith
    have e : (a * ρ * 1.00164 + 0.000272) * (0.01302 + 2 * (0.00164 * N + 0.00003)) =
        1.00164 * 0.01308 * (a * ρ) + 1.00164 * 0.00328 * (a * ρ * N) + 0.000272 * 0.01308 + 0.000272 * 0.00328 * N := by ring
    rw [e]
    norm_num at *; linarith
  have e : ((((a' * ρ + a * (σ * k - g)) * (1 - G) + a * ρ * -G' + H') * U + (a * ρ * (1 - G) + Hc) * ((N + δ) * V + d)) * kmPerRadius) * n / 60 -
      (n * (a * (σ / ρ) + p) * U + n * (a * (β / ρ) + q) * V) * (kmPerRadius / 60) =
      (((a' * ρ + a * (σ * k - g)) * (1 - G) + a * ρ * -G' + H' - (a * (σ / ρ) + p)) * U +
        ((a * ρ * (1 - G) + Hc) * (N + δ) - (a * (β / ρ) + q)) * V + (a * ρ * (1 - G) + Hc) * d) * (n * kmPerRadius / 60) := by ring
  rw [e]
  refine (abs_mul_bd (abs_add_bd (abs_add_bd (abs_mul_bd R1 U1) (abs_mul_bd T1 V1)) D1) (show |n * kmPerRadius / 60| ≤ n * kmPerRadius / 60 by
    rw [abs_of_nonneg (by positivity)])).trans ?_
  have hnR : 0 ≤ n * kmPerRadius / 60 := by positivity
  calc (0.0113 * a * 1 + 0.0216 * a * 1 + 0.0254 * a) * (n * kmPerRadius / 60) ≤ (0.06 * a) * (n * kmPerRadius / 60) := by
        gcongr; norm_num; linarith
    _ = _ := by ring

end Slow
end Sat
