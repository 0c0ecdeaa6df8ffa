import Verif.Props.Coefficients
import Verif.Spec.Sgp4Spec
import Mathlib.Analysis.Calculus.Deriv.Pow
import Mathlib.Analysis.Calculus.Deriv.Mul
import Mathlib.Analysis.Calculus.Deriv.Add
import Mathlib.Analysis.Asymptotics.Lemmas
/-!
# Drag keeps the mean longitude in step with the mean motion: C58

Exact arithmetic.  `Spec.dragL` and `Spec.motion` are the quantities of the record that `sgp4` uses (`sgp4_refines`).
-/

namespace Sat
open Spec.R3 Filter Topology Asymptotics

/-- the mean motion of an initialised record, as a function of time, near the epoch -/
theorem motion_real {s : Satrec ℝ} {t : ℝ} (hn : 0 < s.no) (hA : 0 < Spec.dragA s t) :
    Spec.motion s t = s.no * (Spec.dragA s t ^ 3)⁻¹ := by
  unfold Spec.motion Spec.semiMajor
  simp only [real_powf]
  have hk : (0:ℝ) < XKE := by unfold XKE; norm_num
  have hx : (X2O3 : ℝ) = 2 / 3 := by unfold X2O3; norm_num
  have hl : (1.5 : ℝ) = 3 / 2 := by norm_num
  generalize Spec.dragA s t = A at *
  have hb : 0 < XKE / s.no := div_pos hk hn
  have h1 : ((XKE / s.no) ^ (X2O3 : ℝ) * A * A) ^ (1.5 : ℝ) = XKE / s.no * A ^ 3 := by
    rw [hx, hl, mul_assoc, Real.mul_rpow (by positivity) (by positivity), ← Real.rpow_mul hb.le]
    have e1 : (2 / 3 : ℝ) * (3 / 2) = 1 := by norm_num
    rw [e1, Real.rpow_one]
    congr 1
    have e2 : A * A = A ^ (2 : ℝ) := by
      rw [show (2 : ℝ) = ((2 : ℕ) : ℝ) by norm_num, Real.rpow_natCast]; ring
    rw [e2, ← Real.rpow_mul hA.le]
    have e3 : (2 : ℝ) * (3 / 2) = ((3 : ℕ) : ℝ) := by norm_num
    rw [e3, Real.rpow_natCast]
  rw [h1]
  field_simp

/-- If `(1 + f) A³ = 1 + t^k R` with `A → 1` and `R` bounded, then `f = A⁻³ - 1 + O(t^k)`. -/
theorem bigO_of_product {f A R : ℝ → ℝ} {k : ℕ} (hA : ContinuousAt A 0) (h0 : A 0 = 1) (hR : ContinuousAt R 0)
    (h : ∀ t, (1 + f t) * A t ^ 3 = 1 + t ^ k * R t) (n : ℝ) :
    (fun t => n * f t - (n * (A t ^ 3)⁻¹ - n)) =O[𝓝 0] (fun t : ℝ => t ^ k) := by
  have hpos : ∀ᶠ t in 𝓝 (0:ℝ), 0 < A t := hA.eventually (by rw [h0]; exact lt_mem_nhds one_pos)
  have heq : (fun t => n * f t - (n * (A t ^ 3)⁻¹ - n)) =ᶠ[𝓝 0] fun t => (n * R t * (A t ^ 3)⁻¹) * t ^ k := by
    filter_upwards [hpos] with t ht
    have ht3 : A t ^ 3 ≠ 0 := by positivity
    have : f t = (1 + t ^ k * R t) * (A t ^ 3)⁻¹ - 1 := by
      rw [← h t, mul_assoc, mul_inv_cancel₀ ht3]; ring
    rw [this]; ring
  refine heq.trans_isBigO ?_
  have hc : ContinuousAt (fun t => n * R t * (A t ^ 3)⁻¹) 0 :=
    (continuousAt_const.mul hR).mul ((hA.pow 3).inv₀ (by show A 0 ^ 3 ≠ 0; rw [h0]; norm_num))
  have h1 : (fun t => n * R t * (A t ^ 3)⁻¹) =O[𝓝 0] (fun _ : ℝ => (1:ℝ)) := hc.tendsto.isBigO_one ℝ
  simpa using h1.mul (isBigO_refl (fun t : ℝ => t ^ k) (𝓝 0))

/-- the part of `1 + 3 x + 6 x² + 10 x³ + 15 x⁴`, `x = c t + D2 t² + D3 t³ + D4 t⁴`, of order `t⁵` and above, divided by `t⁵` -/
def seriesTail (c D2 D3 D4 t : ℝ) : ℝ :=
  6 * (2 * c * D4 + 2 * D2 * D3 + (D3 ^ 2 + 2 * D2 * D4) * t + 2 * D3 * D4 * t ^ 2 + D4 ^ 2 * t ^ 3)
    + 10 * (3 * c ^ 2 * (D3 + D4 * t) + 3 * c * (D2 + D3 * t + D4 * t ^ 2) ^ 2 + t * (D2 + D3 * t + D4 * t ^ 2) ^ 3)
    + 15 * (D2 + D3 * t + D4 * t ^ 2) * (4 * c ^ 3 + 6 * c ^ 2 * t * (D2 + D3 * t + D4 * t ^ 2)
      + 4 * c * t ^ 2 * (D2 + D3 * t + D4 * t ^ 2) ^ 2 + t ^ 3 * (D2 + D3 * t + D4 * t ^ 2) ^ 3)

theorem seriesTail_spec (c D2 D3 D4 t : ℝ) :
    1 + (3 / 2 * c * (2 * t) + (D2 + 2 * c ^ 2) * (3 * t ^ 2)
    + 1 / 4 * (3 * D3 + 12 * c * D2 + 10 * c ^ 3) * (4 * t ^ 3)
    + 1 / 5 * (3 * D4 + 12 * c * D3 + 6 * D2 ^ 2 + 30 * c ^ 2 * D2 + 15 * c ^ 4) * (5 * t ^ 4)) =
    1 + 3 * (t * (c + D2 * t + D3 * t ^ 2 + D4 * t ^ 3)) + 6 * (t * (c + D2 * t + D3 * t ^ 2 + D4 * t ^ 3)) ^ 2
      + 10 * (t * (c + D2 * t + D3 * t ^ 2 + D4 * t ^ 3)) ^ 3 + 15 * (t * (c + D2 * t + D3 * t ^ 2 + D4 * t ^ 3)) ^ 4
      - t ^ 5 * seriesTail c D2 D3 D4 t := by
  unfold seriesTail; ring

theorem drag_series_identity (c D2 D3 D4 t : ℝ) :
    (1 + (3 / 2 * c * (2 * t) + (D2 + 2 * c ^ 2) * (3 * t ^ 2)
    + 1 / 4 * (3 * D3 + 12 * c * D2 + 10 * c ^ 3) * (4 * t ^ 3)
    + 1 / 5 * (3 * D4 + 12 * c * D3 + 6 * D2 ^ 2 + 30 * c ^ 2 * D2 + 15 * c ^ 4) * (5 * t ^ 4)))
    * (1 - c * t - D2 * t ^ 2 - D3 * t ^ 3 - D4 * t ^ 4) ^ 3 = 1 + t ^ 5 * (
      (c + D2 * t + D3 * t ^ 2 + D4 * t ^ 3) ^ 5 * (-21 + 35 * (t * (c + D2 * t + D3 * t ^ 2 + D4 * t ^ 3))
        - 15 * (t * (c + D2 * t + D3 * t ^ 2 + D4 * t ^ 3)) ^ 2)
      - seriesTail c D2 D3 D4 t * (1 - c * t - D2 * t ^ 2 - D3 * t ^ 3 - D4 * t ^ 4) ^ 3) := by
  rw [seriesTail_spec]
  have h : 1 - c * t - D2 * t ^ 2 - D3 * t ^ 3 - D4 * t ^ 4 = 1 - t * (c + D2 * t + D3 * t ^ 2 + D4 * t ^ 3) := by ring
  rw [h]
  generalize c + D2 * t + D3 * t ^ 2 + D4 * t ^ 3 = y
  generalize seriesTail c D2 D3 D4 t = Q
  ring

theorem drag_series_bigO {c D2 D3 D4 : ℝ} {A : ℝ → ℝ} (hA : ∀ t, A t = 1 - c * t - D2 * t ^ 2 - D3 * t ^ 3 - D4 * t ^ 4) (n : ℝ) :
    (fun t => n * (3 / 2 * c * (2 * t) + (D2 + 2 * c ^ 2) * (3 * t ^ 2)
    + 1 / 4 * (3 * D3 + 12 * c * D2 + 10 * c ^ 3) * (4 * t ^ 3)
    + 1 / 5 * (3 * D4 + 12 * c * D3 + 6 * D2 ^ 2 + 30 * c ^ 2 * D2 + 15 * c ^ 4) * (5 * t ^ 4)) - (n * (A t ^ 3)⁻¹ - n))
    =O[𝓝 0] (fun t : ℝ => t ^ 5) := by
  have hAc : Continuous A := by rw [show A = _ from funext hA]; fun_prop
  have hA0 : A 0 = 1 := by rw [hA]; norm_num
  have h : ∀ t, _ := fun t => drag_series_identity c D2 D3 D4 t
  simp only [← hA] at h
  exact bigO_of_product hAc.continuousAt hA0 (by unfold seriesTail; fun_prop) h n

/-- **C58.** Drag shrinks the orbit and advances the mean longitude consistently: the rate of the drag advance of the mean
longitude is the change of the mean motion (Kepler's third law for the shrunken orbit), up to terms of fifth order in time for
the full drag model. -/
theorem C58_drag_advance_full (s s' : Satrec ℝ) (o : SGP4InitOptions ℝ) (r : Except SGP4Error (SGP4Result ℝ))
    (h : sgp4init s o = some (s', r)) (he : 0 ≤ o.xecco ∧ o.xecco < 1) (hn : 0 < s'.no) (hN : s'.method = .N)
    (hp : 220 ≤ (orbitOf s' o).perigeeKm) :
    (fun t => deriv (fun τ => s'.no * Spec.dragL s' τ) t - (Spec.motion s' t - s'.no)) =O[𝓝 0] (fun t : ℝ => t ^ 5) := by
  obtain ⟨d2, d3, d4, t3, t4, t5, hi⟩ := (C57_drag_series s s' o r h he).1 hN hp
  obtain ⟨-, c1, -, -, -, -, -, t2, -, -⟩ := C57_drag_coefficients s s' o r h he
  have hi1 : ¬ s'.isimp = 1 := by rw [hi]; decide
  have hA : ∀ t, Spec.dragA s' t = 1 - s'.cc1 * t - s'.d2 * t ^ 2 - s'.d3 * t ^ 3 - s'.d4 * t ^ 4 := by
    intro t; unfold Spec.dragA; rw [if_neg hi1]; norm_num1; ring
  have hL : ∀ t, s'.no * Spec.dragL s' t = s'.no * (s'.t2cof * t ^ 2 + s'.t3cof * t ^ 3 + s'.t4cof * t ^ 4 + s'.t5cof * t ^ 5) := by
    intro t; unfold Spec.dragL; rw [if_neg hi1]; ring
  have hD : ∀ t, deriv (fun τ => s'.no * Spec.dragL s' τ) t
      = s'.no * (s'.t2cof * (2 * t) + s'.t3cof * (3 * t ^ 2) + s'.t4cof * (4 * t ^ 3) + s'.t5cof * (5 * t ^ 4)) := by
    intro t
    have e : (fun τ => s'.no * Spec.dragL s' τ) =
        fun τ => s'.no * (s'.t2cof * τ ^ 2 + s'.t3cof * τ ^ 3 + s'.t4cof * τ ^ 4 + s'.t5cof * τ ^ 5) := funext hL
    rw [e]
    have := ((((hasDerivAt_pow 2 t).const_mul s'.t2cof).add ((hasDerivAt_pow 3 t).const_mul s'.t3cof)).add
      ((hasDerivAt_pow 4 t).const_mul s'.t4cof)).add ((hasDerivAt_pow 5 t).const_mul s'.t5cof)
    have := (this.const_mul s'.no).deriv
    simpa using this
  have hAc : Continuous (fun t => Spec.dragA s' t) := by
    rw [show (fun t => Spec.dragA s' t) = _ from funext hA]; fun_prop
  have hA0 : Spec.dragA s' 0 = 1 := by rw [hA]; norm_num
  have hpos : ∀ᶠ t in 𝓝 (0:ℝ), 0 < Spec.dragA s' t := hAc.continuousAt.eventually (by show ∀ᶠ y in 𝓝 (Spec.dragA s' 0), 0 < y; rw [hA0]; exact lt_mem_nhds one_pos)
  have heq : (fun t => deriv (fun τ => s'.no * Spec.dragL s' τ) t - (Spec.motion s' t - s'.no)) =ᶠ[𝓝 0]
      fun t => s'.no * (s'.t2cof * (2 * t) + s'.t3cof * (3 * t ^ 2) + s'.t4cof * (4 * t ^ 3) + s'.t5cof * (5 * t ^ 4))
        - (s'.no * (Spec.dragA s' t ^ 3)⁻¹ - s'.no) := by
    filter_upwards [hpos] with t ht
    rw [hD, motion_real hn ht]
  refine heq.trans_isBigO ?_
  rw [← c1] at t2 t3 t4 t5
  rw [← d2] at t3 t4 t5
  rw [← d3] at t4 t5
  rw [← d4] at t5
  rw [t2, t3, t4, t5]
  generalize s'.cc1 = c at *
  generalize s'.d2 = D2 at *
  generalize s'.d3 = D3 at *
  generalize s'.d4 = D4 at *
  exact drag_series_bigO hA s'.no

/-- **C58.** The same for the simplified drag model (perigee below 220 km), up to terms of second order. -/
theorem C58_drag_advance_simplified (s s' : Satrec ℝ) (o : SGP4InitOptions ℝ) (r : Except SGP4Error (SGP4Result ℝ))
    (h : sgp4init s o = some (s', r)) (he : 0 ≤ o.xecco ∧ o.xecco < 1) (hn : 0 < s'.no)
    (hp : s'.method = .D ∨ (orbitOf s' o).perigeeKm < 220) :
    (fun t => deriv (fun τ => s'.no * Spec.dragL s' τ) t - (Spec.motion s' t - s'.no)) =O[𝓝 0] (fun t : ℝ => t ^ 2) := by
  obtain ⟨-, -, -, -, -, -, hi⟩ := (C57_drag_series s s' o r h he).2 hp
  obtain ⟨-, c1, -, -, -, -, -, t2, -, -⟩ := C57_drag_coefficients s s' o r h he
  have hA : ∀ t, Spec.dragA s' t = 1 - s'.cc1 * t := by
    intro t; unfold Spec.dragA; rw [if_pos hi]; norm_num1; rfl
  have hD : ∀ t, deriv (fun τ => s'.no * Spec.dragL s' τ) t = s'.no * (s'.t2cof * (2 * t)) := by
    intro t
    have e : (fun τ => s'.no * Spec.dragL s' τ) = fun τ => s'.no * (s'.t2cof * τ ^ 2) := by
      funext t; unfold Spec.dragL; rw [if_pos hi]; ring
    rw [e]
    simp
  have hAc : Continuous (fun t => Spec.dragA s' t) := by
    rw [show (fun t => Spec.dragA s' t) = _ from funext hA]; fun_prop
  have hA0 : Spec.dragA s' 0 = 1 := by rw [hA]; norm_num
  have hpos : ∀ᶠ t in 𝓝 (0:ℝ), 0 < Spec.dragA s' t :=
    hAc.continuousAt.eventually (by show ∀ᶠ y in 𝓝 (Spec.dragA s' 0), 0 < y; rw [hA0]; exact lt_mem_nhds one_pos)
  have heq : (fun t => deriv (fun τ => s'.no * Spec.dragL s' τ) t - (Spec.motion s' t - s'.no)) =ᶠ[𝓝 0]
      fun t => s'.no * (s'.t2cof * (2 * t)) - (s'.no * (Spec.dragA s' t ^ 3)⁻¹ - s'.no) := by
    filter_upwards [hpos] with t ht
    rw [hD, motion_real hn ht]
  refine heq.trans_isBigO ?_
  rw [← c1] at t2
  rw [t2]
  generalize s'.cc1 = c at *
  refine bigO_of_product (f := fun t => 3 / 2 * c * (2 * t)) (R := fun t => - 6 * c ^ 2 + 8 * c ^ 3 * t - 3 * c ^ 4 * t ^ 2)
    hAc.continuousAt hA0 (by fun_prop) ?_ s'.no
  intro t
  rw [hA]
  ring

end Sat
