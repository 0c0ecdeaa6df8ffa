import Verif.Spec.Geometry
import Verif.Model.Transforms
import Verif.Proofs.Loop
/-!
# Coordinate frames, distances, angles (exact real arithmetic)

C38-C43, C45-C47.  All theorems of this file are about the interpretation of the model over `ℝ`; rounding is not covered here.
-/

set_option linter.unusedSectionVars false
set_option linter.unusedSimpArgs false

namespace Sat
open Spec

@[ext] theorem Vec3.ext' {F : Type} {a b : Vec3 F} (hx : a.x = b.x) (hy : a.y = b.y) (hz : a.z = b.z) : a = b := by
  cases a; cases b; simp_all

/-! ## C38: ECI and ECF -/

/-- C38: `ecf_to_eci` is the rotation about the earth's axis by the sidereal angle, `eci_to_ecf` the rotation back. -/
theorem C38_rotations (v : Vec3 ℝ) (g : ℝ) : ecf_to_eci v g = rotZ g v ∧ eci_to_ecf v g = rotZ (-g) v := by
  constructor <;> ext <;> simp [ecf_to_eci, eci_to_ecf, rotZ]

/-- C38: the two conversions with the same angle are inverse to each other, both ways. -/
theorem C38_inverse (v : Vec3 ℝ) (g : ℝ) : eci_to_ecf (ecf_to_eci v g) g = v ∧ ecf_to_eci (eci_to_ecf v g) g = v := by
  have h := Real.sin_sq_add_cos_sq g
  constructor <;> ext <;> simp only [ecf_to_eci, eci_to_ecf, real_sin, real_cos]
  · linear_combination v.x * h
  · linear_combination v.y * h
  · linear_combination v.x * h
  · linear_combination v.y * h

/-- C38: both conversions keep inner products (so lengths and angles) and the z coordinate. -/
theorem C38_isometry (v w : Vec3 ℝ) (g : ℝ) :
    dot (ecf_to_eci v g) (ecf_to_eci w g) = dot v w ∧ dot (eci_to_ecf v g) (eci_to_ecf w g) = dot v w ∧
    (ecf_to_eci v g).z = v.z ∧ (eci_to_ecf v g).z = v.z := by
  have h := Real.sin_sq_add_cos_sq g
  refine ⟨?_, ?_, rfl, rfl⟩ <;> simp only [dot, ecf_to_eci, eci_to_ecf, real_sin, real_cos]
  · linear_combination (v.x * w.x + v.y * w.y) * h
  · linear_combination (v.x * w.x + v.y * w.y) * h

/-- C38: distances between two points are the same in both frames. -/
theorem C38_distance (v w : Vec3 ℝ) (g : ℝ) :
    (ecf_to_eci v g).range (ecf_to_eci w g) = v.range w ∧ (eci_to_ecf v g).range (eci_to_ecf w g) = v.range w := by
  have h := Real.sin_sq_add_cos_sq g
  constructor <;> simp only [Vec3.range, real_sqrt, real_powf, real_rpow_two] <;> congr 1 <;>
    simp only [ecf_to_eci, eci_to_ecf, real_sin, real_cos]
  · linear_combination ((v.x - w.x) ^ 2 + (v.y - w.y) ^ 2) * h
  · linear_combination ((v.x - w.x) ^ 2 + (v.y - w.y) ^ 2) * h

/-- C38: the conversions compose additively in the angle, and only the angle modulo one turn matters. -/
theorem C38_compose (v : Vec3 ℝ) (g g' : ℝ) (k : ℤ) :
    ecf_to_eci (ecf_to_eci v g) g' = ecf_to_eci v (g + g') ∧ eci_to_ecf (eci_to_ecf v g) g' = eci_to_ecf v (g + g') ∧
    ecf_to_eci v (g + k * (2 * Real.pi)) = ecf_to_eci v g ∧ eci_to_ecf v (g + k * (2 * Real.pi)) = eci_to_ecf v g := by
  refine ⟨?_, ?_, ?_, ?_⟩ <;> ext <;>
    simp only [ecf_to_eci, eci_to_ecf, real_sin, real_cos, Real.sin_add_int_mul_two_pi, Real.cos_add_int_mul_two_pi] <;>
    (try rw [Real.sin_add, Real.cos_add]) <;> (try ring)

/-- the conversions really turn vectors: a quarter turn takes the x axis to the y axis -/
example : ecf_to_eci (⟨7000, 0, 3⟩ : Vec3 ℝ) (Real.pi / 2) = ⟨0, 7000, 3⟩ := by
  ext <;> simp [ecf_to_eci]

/-! ## C47: distances -/

/-- C47: `range` is the Euclidean length of the difference. -/
theorem C47_range_is_length (a b : Vec3 ℝ) : a.range b = len (sub a b) := by
  simp only [Vec3.range, len, dot, sub, real_sqrt, real_powf, real_rpow_two]
  congr 1; ring

/-- C47: non-negative, symmetric, zero exactly on equal vectors. -/
theorem C47_range_separates (a b : Vec3 ℝ) : 0 ≤ a.range b ∧ a.range b = b.range a ∧ (a.range b = 0 ↔ a = b) := by
  simp only [Vec3.range, real_sqrt, real_powf, real_rpow_two]
  refine ⟨Real.sqrt_nonneg _, by congr 1; ring, ?_⟩
  constructor
  · intro h
    rw [Real.sqrt_eq_zero (by positivity)] at h
    have h1 : (a.x - b.x) ^ 2 = 0 := by nlinarith [sq_nonneg (a.x - b.x), sq_nonneg (a.y - b.y), sq_nonneg (a.z - b.z)]
    have h2 : (a.y - b.y) ^ 2 = 0 := by nlinarith [sq_nonneg (a.x - b.x), sq_nonneg (a.y - b.y), sq_nonneg (a.z - b.z)]
    have h3 : (a.z - b.z) ^ 2 = 0 := by nlinarith [sq_nonneg (a.x - b.x), sq_nonneg (a.y - b.y), sq_nonneg (a.z - b.z)]
    ext
    · linarith [pow_eq_zero_iff (two_ne_zero) |>.mp h1]
    · linarith [pow_eq_zero_iff (two_ne_zero) |>.mp h2]
    · linarith [pow_eq_zero_iff (two_ne_zero) |>.mp h3]
  · rintro rfl; simp

/-- Minkowski's inequality in three dimensions. -/
theorem sqrt_triangle (a b c u v w : ℝ) :
    Real.sqrt ((a + u) ^ 2 + (b + v) ^ 2 + (c + w) ^ 2) ≤
      Real.sqrt (a ^ 2 + b ^ 2 + c ^ 2) + Real.sqrt (u ^ 2 + v ^ 2 + w ^ 2) := by
  have hp : 0 ≤ a ^ 2 + b ^ 2 + c ^ 2 := by positivity
  have hq : 0 ≤ u ^ 2 + v ^ 2 + w ^ 2 := by positivity
  have hP := Real.sqrt_nonneg (a ^ 2 + b ^ 2 + c ^ 2)
  have hQ := Real.sqrt_nonneg (u ^ 2 + v ^ 2 + w ^ 2)
  have cs : a * u + b * v + c * w ≤ Real.sqrt (a ^ 2 + b ^ 2 + c ^ 2) * Real.sqrt (u ^ 2 + v ^ 2 + w ^ 2) := by
    rw [← Real.sqrt_mul hp]
    apply Real.le_sqrt_of_sq_le
    nlinarith [sq_nonneg (a * v - b * u), sq_nonneg (a * w - c * u), sq_nonneg (b * w - c * v)]
  apply Real.sqrt_le_iff.mpr
  refine ⟨by positivity, ?_⟩
  nlinarith [Real.sq_sqrt hp, Real.sq_sqrt hq]

/-- C47: triangle inequality. -/
theorem C47_range_triangle (a b c : Vec3 ℝ) : a.range c ≤ a.range b + b.range c := by
  simp only [Vec3.range, real_sqrt, real_powf, real_rpow_two]
  have h := sqrt_triangle (a.x - b.x) (a.y - b.y) (a.z - b.z) (b.x - c.x) (b.y - c.y) (b.z - c.z)
  convert h using 2
  ring

/-- C47: `add` and `subtract` undo each other; `range` is invariant under a common translation. -/
theorem C47_add_subtract (a b c : Vec3 ℝ) :
    (a.add b).subtract b = a ∧ (a.subtract b).add b = a ∧ (a.add c).range (b.add c) = a.range b := by
  refine ⟨?_, ?_, ?_⟩
  · ext <;> simp [Vec3.add, Vec3.subtract]
  · ext <;> simp [Vec3.add, Vec3.subtract]
  · simp [Vec3.add, Vec3.range]

example : (⟨1, 2, 3⟩ : Vec3 ℝ).range ⟨1, 5, 7⟩ = 5 := by
  simp only [Vec3.range, real_sqrt, real_powf, real_rpow_two]
  rw [show ((1:ℝ) - 1) ^ 2 + (2 - 5) ^ 2 + (3 - 7) ^ 2 = 5 ^ 2 by norm_num]
  exact Real.sqrt_sq (by norm_num)

/-! ## C45: Doppler factor -/

/-- C45: the factor is one plus the absolute one-second range change over the speed of light (km/s). -/
theorem C45_doppler_formula (location position velocity : Vec3 ℝ) :
    doppler_factor location position velocity =
      1 + |len (sub (along position 1 velocity) location) - len (sub position location)| / 299792.458 := by
  have hr : ∀ r : ℝ, r * sign r = |r| := by
    intro r
    simp only [sign, real_fle]
    by_cases h : (0.0 : ℝ) ≤ r
    · rw [if_pos (by simpa using h)]
      rw [abs_of_nonneg (by norm_num at h; exact h)]; norm_num
    · rw [if_neg (by simpa using h)]
      rw [abs_of_neg (by norm_num at h; exact h)]; norm_num
  simp only [doppler_factor, hr, C47_range_is_length]
  have : Vec3.add position velocity = along position 1 velocity := by ext <;> simp [Vec3.add, along]
  rw [this]
  simp only [LIGHT]
  norm_num

/-- C45: the factor is at least 1, and exactly 1 when the range after one second is the range now. -/
theorem C45_doppler_at_least_one (location position velocity : Vec3 ℝ) :
    1 ≤ doppler_factor location position velocity ∧
    (doppler_factor location position velocity = 1 ↔
      len (sub (along position 1 velocity) location) = len (sub position location)) := by
  rw [C45_doppler_formula]
  constructor
  · have := abs_nonneg (len (sub (along position 1 velocity) location) - len (sub position location))
    have h2 : 0 ≤ |len (sub (along position 1 velocity) location) - len (sub position location)| / 299792.458 := by
      apply div_nonneg this; norm_num
    linarith
  · constructor
    · intro h
      have h0 : |len (sub (along position 1 velocity) location) - len (sub position location)| / 299792.458 = 0 := by linarith
      rw [div_eq_zero_iff] at h0
      rcases h0 with h0 | h0
      · exact sub_eq_zero.mp (abs_eq_zero.mp h0)
      · norm_num at h0
    · intro h; rw [h]; simp

/-- C45: moving observer and satellite together changes nothing. -/
theorem C45_doppler_translation (location position velocity shift : Vec3 ℝ) :
    doppler_factor (location.add shift) (position.add shift) velocity = doppler_factor location position velocity := by
  simp only [C45_doppler_formula, len, dot, sub, along, Vec3.add]
  ring_nf

/-- C45: the factor is bounded by the speed: it exceeds 1 by at most |velocity| / c. -/
theorem C45_doppler_bound (location position velocity : Vec3 ℝ) :
    doppler_factor location position velocity ≤ 1 + len velocity / 299792.458 := by
  rw [C45_doppler_formula]
  have hc : (0 : ℝ) < 299792.458 := by norm_num
  have key : |len (sub (along position 1 velocity) location) - len (sub position location)| ≤ len velocity := by
    simp only [len, dot, sub, along]
    have h1 := sqrt_triangle (position.x - location.x) (position.y - location.y) (position.z - location.z)
      velocity.x velocity.y velocity.z
    have h2 := sqrt_triangle (position.x + velocity.x - location.x) (position.y + velocity.y - location.y)
      (position.z + velocity.z - location.z) (-velocity.x) (-velocity.y) (-velocity.z)
    rw [abs_le]
    ring_nf at h1 h2 ⊢
    constructor <;> linarith
  have := div_le_div_of_nonneg_right key hc.le
  linarith

/-- C45, the property a user expects and the code violates: for a satellite receding from the observer and the same satellite
approaching at the same range rate, the factors should lie on different sides of 1.  They are equal: for a purely radial
motion (position at distance `r` on the line of sight, speed `v < r` outward or inward) both are `1 + v / c`. -/
theorem C45_violated_direction_lost (location u : Vec3 ℝ) (hu : dot u u = 1) (r v : ℝ) (hv : 0 ≤ v) (hr : v ≤ r) :
    doppler_factor location (along location r u) (scale v u) = 1 + v / 299792.458 ∧
    doppler_factor location (along location r u) (scale (-v) u) = 1 + v / 299792.458 := by
  have hl : ∀ s : ℝ, 0 ≤ s → len (sub (along location s u) location) = s := by
    intro s hs
    have : dot (sub (along location s u) location) (sub (along location s u) location) = s ^ 2 := by
      simp only [dot, sub, along] at hu ⊢
      linear_combination s ^ 2 * hu
    rw [len, this, Real.sqrt_sq hs]
  have h1 : along (along location r u) 1 (scale v u) = along location (r + v) u := by
    ext <;> simp only [along, scale] <;> ring
  have h2 : along (along location r u) 1 (scale (-v) u) = along location (r - v) u := by
    ext <;> simp only [along, scale] <;> ring
  simp only [C45_doppler_formula, h1, h2]
  rw [hl r (by linarith), hl (r + v) (by linarith), hl (r - v) (by linarith)]
  constructor
  · rw [show r + v - r = v by ring, abs_of_nonneg hv]
  · rw [show r - v - r = -v by ring, abs_neg, abs_of_nonneg hv]

example : dot (⟨1, 0, 0⟩ : Vec3 ℝ) ⟨1, 0, 0⟩ = 1 ∧ (0 : ℝ) ≤ 7 ∧ (7 : ℝ) ≤ 700 := by norm_num [dot]

/-! ## C46: degrees and radians -/

/-- C46: the conversions are multiplication by `180/π` and `π/180`, and inverse to each other. -/
theorem C46_inverse (a : ℝ) :
    radians_to_degrees a = a * (180 / Real.pi) ∧ degrees_to_radians a = a * (Real.pi / 180) ∧
    radians_to_degrees (degrees_to_radians a) = a ∧ degrees_to_radians (radians_to_degrees a) = a := by
  have hpi := Real.pi_ne_zero
  simp only [radians_to_degrees, degrees_to_radians, RAD_TO_DEG, DEG_2_RAD, real_pi]
  norm_num
  constructor <;> field_simp

/-- C46: the checked conversions panic exactly outside the closed range and otherwise are the plain conversion. -/
theorem C46_checked (a : ℝ) :
    degrees_lat a = (if a ∈ Set.Icc (-(Real.pi / 2)) (Real.pi / 2) then some (a * (180 / Real.pi)) else none) ∧
    degrees_long a = (if a ∈ Set.Icc (-Real.pi) Real.pi then some (a * (180 / Real.pi)) else none) ∧
    radians_lat a = (if a ∈ Set.Icc (-90 : ℝ) 90 then some (a * (Real.pi / 180)) else none) ∧
    radians_long a = (if a ∈ Set.Icc (-180 : ℝ) 180 then some (a * (Real.pi / 180)) else none) := by
  have h := C46_inverse a
  have key : ∀ lo hi : ℝ, ((decide (a < lo) || decide (hi < a)) = true) ↔ ¬ (a ∈ Set.Icc lo hi) := by
    intro lo hi
    simp only [Bool.or_eq_true, decide_eq_true_eq, Set.mem_Icc, not_and_or, not_le]
  refine ⟨?_, ?_, ?_, ?_⟩
  · simp only [degrees_lat, real_flt, real_fracPi2, key, ite_not, h.1]
  · simp only [degrees_long, real_flt, real_pi, key, ite_not, h.1]
  · simp only [radians_lat, real_flt, key, ite_not, h.2.1]
    norm_num
  · simp only [radians_long, real_flt, key, ite_not, h.2.1]
    norm_num

example : radians_lat (45 : ℝ) = some (Real.pi / 4) ∧ radians_lat (91 : ℝ) = none := by
  constructor
  · rw [(C46_checked 45).2.2.1, if_pos (by norm_num)]; congr 1; ring
  · rw [(C46_checked 91).2.2.1, if_neg (by norm_num)]

end Sat
