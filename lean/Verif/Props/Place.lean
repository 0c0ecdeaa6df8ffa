import Verif.Props.GeodeticError
import Mathlib.Topology.Order.IntermediateValue
/-!
# Geodetic coordinates of a point

`Stands g O`: the point `O` has the geodetic coordinates `g`.  The conversion of the crate gives exactly that point, every point at least 6345 km from
the centre of the earth has geodetic coordinates, and how the angle at the foot of the normal reacts to moving the point.
-/

namespace Sat
open Spec

/-- `O` is the point at geodetic longitude, latitude and height `g`: `height` km along the outward normal from a point of the ellipsoid at which the
outward normal has the latitude and the longitude -/
def Stands (g : Geodedic ℝ) (O : Vec3 ℝ) : Prop :=
  ∃ P, OnEllipsoid P ∧ (∃ c > 0, zenith g.latitude g.longitude = scale c (ellipsoidGradient P)) ∧
    O = along P g.height (zenith g.latitude g.longitude)

theorem stands_ecf (g : Geodedic ℝ) : Stands g (geodedic_to_ecf g) := by
  obtain ⟨h1, -, h3⟩ := C39_height_along_normal g.longitude g.latitude g.height
  exact ⟨_, C39_on_ellipsoid g.longitude g.latitude, h3, h1⟩

/-- a point of the ellipsoid is determined by its normal -/
theorem foot_unique {P Q : Vec3 ℝ} (hP : OnEllipsoid P) (hQ : OnEllipsoid Q) {c d : ℝ} (hc : 0 < c) (hd : 0 < d)
    (h : scale c (ellipsoidGradient P) = scale d (ellipsoidGradient Q)) : P = Q := by
  have hA : equatorial ≠ 0 := by rw [equatorial]; norm_num
  have hB : polar ≠ 0 := by rw [polar]; norm_num
  simp only [scale, ellipsoidGradient, Vec3.mk.injEq] at h
  obtain ⟨h1, h2, h3⟩ := h
  have e1 : c * P.x = d * Q.x := by field_simp at h1; linarith
  have e2 : c * P.y = d * Q.y := by field_simp at h2; linarith
  have e3 : c * P.z = d * Q.z := by field_simp at h3; linarith
  unfold OnEllipsoid at hP hQ
  have hcd : c ^ 2 = d ^ 2 := by
    have l : c ^ 2 * ((P.x ^ 2 + P.y ^ 2) / equatorial ^ 2 + P.z ^ 2 / polar ^ 2) = d ^ 2 * ((Q.x ^ 2 + Q.y ^ 2) / equatorial ^ 2 + Q.z ^ 2 / polar ^ 2) := by
      have : ∀ x y z k : ℝ, k ^ 2 * ((x ^ 2 + y ^ 2) / equatorial ^ 2 + z ^ 2 / polar ^ 2) = ((k * x) ^ 2 + (k * y) ^ 2) / equatorial ^ 2 + (k * z) ^ 2 / polar ^ 2 := by
        intro x y z k; ring
      rw [this, this, e1, e2, e3]
    rw [hP, hQ, mul_one, mul_one] at l
    exact l
  have hcd' : c = d := by nlinarith
  rw [hcd'] at e1 e2 e3
  ext
  · exact mul_left_cancel₀ hd.ne' e1
  · exact mul_left_cancel₀ hd.ne' e2
  · exact mul_left_cancel₀ hd.ne' e3

/-- exactly one point has given geodetic coordinates -/
theorem stands_iff {g : Geodedic ℝ} {O : Vec3 ℝ} : Stands g O ↔ O = geodedic_to_ecf g := by
  constructor
  · rintro ⟨P, h1, ⟨c, hc, h2⟩, rfl⟩
    obtain ⟨Q, k1, ⟨d, hd, k2⟩, k3⟩ := stands_ecf g
    rw [k3, foot_unique h1 k1 hc hd (h2.symm.trans k2)]
  · rintro rfl; exact stands_ecf g

theorem primeVertical_bounds (φ : ℝ) : 6378.137 ≤ primeVertical φ ∧ primeVertical φ ≤ 6400 := by
  obtain ⟨w1, w2, w3, w4⟩ := w_bounds φ
  constructor
  · rw [primeVertical, equatorial, le_div_iff₀ (by linarith)]; nlinarith
  · rw [primeVertical, equatorial, div_le_iff₀ (by linarith)]; nlinarith

theorem tip_bound (φ : ℝ) : |ellE2 * primeVertical φ * Real.sin φ| ≤ 42.9 := by
  have e0 := ellE2_pos
  obtain ⟨h1, h2⟩ := primeVertical_bounds φ
  rw [abs_mul, abs_of_pos (mul_pos e0 (by linarith))]
  calc _ ≤ (0.0067 * 6400) * (1 : ℝ) := by
        gcongr
        · exact ellE2_le
        · exact Real.abs_sin_le_one φ
    _ ≤ _ := by norm_num

theorem primeVertical_continuous : Continuous primeVertical := by
  unfold primeVertical
  refine Continuous.div continuous_const (by fun_prop) fun φ => ?_
  have := (w_bounds φ).2.2.1
  intro h0
  rw [h0] at this
  norm_num at this

/-- every point at least 6345 km from the centre has geodetic coordinates, with a height of at least the distance less 6443 km -/
theorem has_place (O : Vec3 ℝ) {D : ℝ} (hD : 6345 ≤ D) (hO : D ^ 2 ≤ O.x ^ 2 + O.y ^ 2 + O.z ^ 2) :
    ∃ g : Geodedic ℝ, Stands g O ∧ |g.latitude| ≤ Real.pi / 2 ∧ |g.longitude| ≤ Real.pi ∧ D - 6443 ≤ g.height := by
  set r := Real.sqrt (O.x ^ 2 + O.y ^ 2) with hr
  have hr0 : 0 ≤ r := Real.sqrt_nonneg _
  have hr2 : r ^ 2 = O.x ^ 2 + O.y ^ 2 := Real.sq_sqrt (by positivity)
  have hpi := Real.pi_pos
  -- the latitude
  have key : ∃ φ R : ℝ, |φ| ≤ Real.pi / 2 ∧ 0 ≤ R ∧ r = R * Real.cos φ ∧ O.z = R * Real.sin φ - ellE2 * primeVertical φ * Real.sin φ := by
    rcases hr0.eq_or_lt with h0 | h0
    · have hz2 : D ^ 2 ≤ O.z ^ 2 := by nlinarith
      have hz : D ≤ |O.z| := abs_le_of_sq_le_sq (by rw [sq_abs]; exact hz2) (abs_nonneg _) |> fun h => (le_abs_self D).trans h
      have e0 := ellE2_pos
      rcases le_total 0 O.z with hs | hs
      · refine ⟨Real.pi / 2, O.z + ellE2 * primeVertical (Real.pi / 2), by rw [abs_of_pos (by positivity)], ?_, ?_, ?_⟩
        · have := primeVertical_pos (Real.pi / 2); positivity
        · rw [Real.cos_pi_div_two, mul_zero, ← h0]
        · rw [Real.sin_pi_div_two]; ring
      · refine ⟨-(Real.pi / 2), -O.z + ellE2 * primeVertical (-(Real.pi / 2)), by rw [abs_neg, abs_of_pos (by positivity)], ?_, ?_, ?_⟩
        · have := primeVertical_pos (-(Real.pi / 2)); have : 0 ≤ -O.z := by linarith
          positivity
        · rw [Real.cos_neg, Real.cos_pi_div_two, mul_zero, ← h0]
        · rw [Real.sin_neg, Real.sin_pi_div_two]; ring
    · set f : ℝ → ℝ := fun φ => r * Real.sin φ - (O.z + ellE2 * primeVertical φ * Real.sin φ) * Real.cos φ with hf
      have hc : Continuous f := by
        have := primeVertical_continuous
        fun_prop
      have f1 : f (-(Real.pi / 2)) ≤ 0 := by simp [hf]; exact hr0
      have f2 : 0 ≤ f (Real.pi / 2) := by simp [hf]; exact hr0
      obtain ⟨φ, hφ, hz⟩ := intermediate_value_Icc (by linarith) hc.continuousOn ⟨f1, f2⟩
      have hz' : r * Real.sin φ - (O.z + ellE2 * primeVertical φ * Real.sin φ) * Real.cos φ = 0 := hz
      have hcos : 0 ≤ Real.cos φ := Real.cos_nonneg_of_mem_Icc hφ
      have hp := Real.sin_sq_add_cos_sq φ
      have hcos' : 0 < Real.cos φ := by
        refine lt_of_le_of_ne hcos fun h => ?_
        rw [← h] at hz' hp
        have : Real.sin φ ≠ 0 := by intro h'; rw [h'] at hp; norm_num at hp
        have : r * Real.sin φ = 0 := by linarith
        rcases mul_eq_zero.mp this with h' | h'
        · linarith
        · contradiction
      refine ⟨φ, r / Real.cos φ, abs_le.mpr ⟨hφ.1, hφ.2⟩, by positivity, by field_simp, ?_⟩
      field_simp
      linarith
  obtain ⟨φ, R, k1, k2, k3, k4⟩ := key
  have hp := Real.sin_sq_add_cos_sq φ
  obtain ⟨n1, n2⟩ := primeVertical_bounds φ
  have tb := tip_bound φ
  obtain ⟨t1, t2⟩ := abs_le.mp tb
  refine ⟨⟨atan2R O.y O.x, φ, R - primeVertical φ⟩, ?_, k1, Complex.abs_arg_le_pi _, ?_⟩
  · rw [stands_iff, geodedic_to_ecf_real]
    have a1 := atan2R_cos O.y O.x
    have a2 := atan2R_sin O.y O.x
    rw [← hr] at a1 a2
    ext
    · show O.x = (primeVertical φ + (R - primeVertical φ)) * Real.cos φ * Real.cos (atan2R O.y O.x)
      rw [add_sub_cancel, ← k3, a1]
    · show O.y = (primeVertical φ + (R - primeVertical φ)) * Real.cos φ * Real.sin (atan2R O.y O.x)
      rw [add_sub_cancel, ← k3, a2]
    · show O.z = (primeVertical φ * (1 - ellE2) + (R - primeVertical φ)) * Real.sin φ
      rw [k4]; ring
  · show D - 6443 ≤ R - primeVertical φ
    have hR : D ≤ R + 42.9 := by
      refine abs_le_of_sq_le_sq' (le_trans hO ?_) (by linarith) |>.2
      have hzz : |O.z - R * Real.sin φ| ≤ 42.9 := by rw [k4, sub_sub_cancel_left, abs_neg]; exact tb
      obtain ⟨z1, z2⟩ := abs_le.mp hzz
      have hsq : (O.z - R * Real.sin φ) ^ 2 ≤ 42.9 ^ 2 := sq_le_sq' z1 z2
      have hcr : R * Real.sin φ * (O.z - R * Real.sin φ) ≤ R * 42.9 := by
        have h1 : |R * Real.sin φ * (O.z - R * Real.sin φ)| ≤ R * 42.9 := by
          rw [abs_mul, abs_mul, abs_of_nonneg k2]
          have := Real.abs_sin_le_one φ
          calc _ ≤ (R * 1) * 42.9 := by gcongr
            _ = _ := by ring
        exact (le_abs_self _).trans h1
      have e : O.x ^ 2 + O.y ^ 2 + O.z ^ 2 = R ^ 2 + 2 * (R * Real.sin φ * (O.z - R * Real.sin φ)) + (O.z - R * Real.sin φ) ^ 2 := by
        rw [← hr2, k3]; linear_combination R ^ 2 * hp
      rw [e]; nlinarith
    linarith

set_option maxHeartbeats 600000 in
/-- moving the tip of a vector along the axis and across -/
theorem tip_moved2 {R φ x y Δ ε : ℝ} (hφ : |φ| ≤ Real.pi / 2) (hy : |y - R * Real.sin φ| ≤ Δ) (hx : |x - R * Real.cos φ| ≤ ε) (hx0 : 0 ≤ x)
    (hΔ : Δ + ε < R) :
    |atan2R y x - φ| ≤ (Δ * Real.cos φ + ε) / (R - Δ - ε) ∧ |Real.sqrt (x ^ 2 + y ^ 2) - R| ≤ Δ + ε := by
  have hφ' := abs_le.mp hφ
  have hc : 0 ≤ Real.cos φ := Real.cos_nonneg_of_mem_Icc ⟨hφ'.1, hφ'.2⟩
  have hc1 := Real.cos_le_one φ
  have hΔ0 : 0 ≤ Δ := (abs_nonneg _).trans hy
  have hε0 : 0 ≤ ε := (abs_nonneg _).trans hx
  have hs1 := Real.abs_sin_le_one φ
  set ψ := atan2R y x with hψ
  have a1 := atan2R_cos y x
  have a2 := atan2R_sin y x
  rw [← hψ] at a1 a2
  set ρ := Real.sqrt (x ^ 2 + y ^ 2) with hρ
  have hρ0 : 0 ≤ ρ := Real.sqrt_nonneg _
  have hp := Real.sin_sq_add_cos_sq φ
  -- components along and across the direction
  set A := x * Real.cos φ + y * Real.sin φ with hA
  set B := y * Real.cos φ - x * Real.sin φ with hB
  have eA : A - R = (x - R * Real.cos φ) * Real.cos φ + (y - R * Real.sin φ) * Real.sin φ := by rw [hA]; linear_combination R * hp
  have eB : B = (y - R * Real.sin φ) * Real.cos φ - (x - R * Real.cos φ) * Real.sin φ := by rw [hB]; ring
  have bA : |A - R| ≤ Δ + ε := by
    rw [eA]
    refine (abs_add_le _ _).trans ?_
    rw [abs_mul, abs_mul, abs_of_nonneg hc]
    have h1 := mul_le_mul hx hc1 hc hε0
    have h2 := mul_le_mul hy hs1 (abs_nonneg _) hΔ0
    linarith
  have bB : |B| ≤ Δ * Real.cos φ + ε := by
    rw [eB]
    refine (abs_sub _ _).trans ?_
    rw [abs_mul, abs_mul, abs_of_nonneg hc]
    have h1 := mul_le_mul hx hs1 (abs_nonneg _) hε0
    have h2 := mul_le_mul_of_nonneg_right hy hc
    linarith
  have bA' := abs_le.mp bA
  have hA0 : 0 < A := by linarith
  have hsd : ρ * Real.sin (ψ - φ) = B := by
    rw [Real.sin_sub, hB]; linear_combination Real.cos φ * a2 - Real.sin φ * a1
  have hcd : ρ * Real.cos (ψ - φ) = A := by
    rw [Real.cos_sub, hA]; linear_combination Real.cos φ * a1 + Real.sin φ * a2
  have hρ1 : 0 < ρ := by
    refine lt_of_le_of_ne hρ0 fun h0 => ?_
    rw [← h0, zero_mul] at hcd; linarith
  have hcd0 : 0 < Real.cos (ψ - φ) := by
    rw [← hcd] at hA0
    exact (pos_iff_pos_of_mul_pos hA0).mp hρ1
  have hψm : ψ ∈ Set.Icc (-(Real.pi / 2)) (Real.pi / 2) := atan2R_half hx0
  have hlt : |ψ - φ| < Real.pi / 2 := by
    by_contra hcon
    push Not at hcon
    have hle : |ψ - φ| ≤ Real.pi + Real.pi / 2 := by
      rw [abs_le]; constructor <;> linarith [hψm.1, hψm.2, hφ'.1, hφ'.2, Real.pi_pos]
    have := Real.cos_nonpos_of_pi_div_two_le_of_le hcon hle
    rw [Real.cos_abs] at this
    linarith
  constructor
  · have htan : |ψ - φ| ≤ |Real.tan (ψ - φ)| := by
      rcases le_total 0 (ψ - φ) with h | h
      · rw [abs_of_nonneg h] at hlt ⊢
        exact (Real.le_tan h hlt).trans (le_abs_self _)
      · rw [abs_of_nonpos h] at hlt ⊢
        refine (Real.le_tan (by linarith) hlt).trans ?_
        rw [Real.tan_neg]; exact neg_le_abs _
    refine htan.trans ?_
    have ht : Real.tan (ψ - φ) = B / A := by
      rw [Real.tan_eq_sin_div_cos, ← hsd, ← hcd]; field_simp
    rw [ht, abs_div, abs_of_pos hA0]
    exact div_le_div₀ (by positivity) bB (by linarith) (by linarith)
  · have h2 : ρ ^ 2 = A ^ 2 + B ^ 2 := by
      rw [← hsd, ← hcd]; linear_combination (-ρ ^ 2) * Real.sin_sq_add_cos_sq (ψ - φ)
    -- the distance of (x, y) from R (cos φ, sin φ)
    have h3 : (A - R) ^ 2 + B ^ 2 ≤ (Δ + ε) ^ 2 := by
      have e : (A - R) ^ 2 + B ^ 2 = (x - R * Real.cos φ) ^ 2 + (y - R * Real.sin φ) ^ 2 := by
        rw [eA, eB]
        linear_combination ((x - R * Real.cos φ) ^ 2 + (y - R * Real.sin φ) ^ 2) * hp
      rw [e]
      have h4 := abs_le.mp hx
      have h5 := abs_le.mp hy
      have h6 := sq_le_sq' h4.1 h4.2
      have h7 := sq_le_sq' h5.1 h5.2
      linarith [add_sq Δ ε, mul_nonneg hΔ0 hε0]
    have hRp : 0 < R := by linarith
    have h6 : (ρ - R) ^ 2 ≤ (A - R) ^ 2 + B ^ 2 := by
      have hAρ : A ≤ ρ := abs_le_of_sq_le_sq' (by rw [h2]; exact le_add_of_nonneg_right (sq_nonneg B)) hρ0 |>.2
      have := mul_le_mul_of_nonneg_left hAρ hRp.le
      linarith [sub_sq ρ R, sub_sq A R]
    exact abs_le_of_sq_le_sq (h6.trans h3) (by positivity)

end Sat
