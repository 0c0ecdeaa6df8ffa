import Verif.Props.Frames
import Mathlib.Analysis.SpecialFunctions.Trigonometric.Angle
/-!
# Geodetic, topocentric and look-angle conversions (exact real arithmetic)

C39-C43.
-/

set_option linter.unusedSimpArgs false

namespace Sat
open Spec

/-- squared eccentricity of the reference ellipsoid -/
theorem ellE2_real : (ellE2 : ℝ) = 1 - (polar / equatorial) ^ 2 := by
  simp only [ellE2, ellF, ellA, ellB, polar, equatorial]
  norm_num

theorem ellE2_pos : (0 : ℝ) < ellE2 := by
  rw [ellE2_real, polar, equatorial]; norm_num

theorem ellE2_lt : (ellE2 : ℝ) < 1 / 100 := by
  rw [ellE2_real, polar, equatorial]; norm_num

/-- `1 - e² sin² φ` stays well away from zero. -/
theorem one_sub_pos (s : ℝ) (hs : s ^ 2 ≤ 1) : 99 / 100 < 1 - ellE2 * s ^ 2 := by
  have := ellE2_pos; have := ellE2_lt
  nlinarith [sq_nonneg s]

/-- radius of curvature in the prime vertical -/
noncomputable def primeVertical (φ : ℝ) : ℝ := equatorial / Real.sqrt (1 - ellE2 * Real.sin φ ^ 2)

theorem primeVertical_pos (φ : ℝ) : 0 < primeVertical φ := by
  rw [primeVertical, equatorial]
  have := one_sub_pos (Real.sin φ) (Real.sin_sq_le_one φ)
  have : 0 < Real.sqrt (1 - ellE2 * Real.sin φ ^ 2) := Real.sqrt_pos.mpr (by linarith)
  positivity

theorem geodedic_to_ecf_real (g : Geodedic ℝ) : geodedic_to_ecf g =
    ⟨(primeVertical g.latitude + g.height) * Real.cos g.latitude * Real.cos g.longitude,
     (primeVertical g.latitude + g.height) * Real.cos g.latitude * Real.sin g.longitude,
     (primeVertical g.latitude * (1 - ellE2) + g.height) * Real.sin g.latitude⟩ := by
  have h1 : (1.0 : ℝ) = 1 := by norm_num
  simp only [geodedic_to_ecf, real_sqrt, real_powf, real_rpow_two, real_sin, real_cos]
  rw [show (OfScientific.ofScientific 10 true 1 : ℝ) = 1 from h1]
  rfl

/-- C39: at height 0 the point lies on the ellipsoid with semi-axes 6378.137 and 6356.7523142 km. -/
theorem C39_on_ellipsoid (l φ : ℝ) : OnEllipsoid (geodedic_to_ecf ⟨l, φ, 0⟩) := by
  rw [geodedic_to_ecf_real, OnEllipsoid]
  simp only [add_zero]
  have hw := one_sub_pos (Real.sin φ) (Real.sin_sq_le_one φ)
  have hA : equatorial ≠ 0 := by rw [equatorial]; norm_num
  have hB : polar ≠ 0 := by rw [polar]; norm_num
  have hN : primeVertical φ ^ 2 * (1 - ellE2 * Real.sin φ ^ 2) = equatorial ^ 2 := by
    rw [primeVertical, div_pow, Real.sq_sqrt (by linarith)]
    field_simp
  have hE : 1 - (ellE2 : ℝ) = (polar / equatorial) ^ 2 := by rw [ellE2_real]; ring
  have h1 := Real.sin_sq_add_cos_sq φ
  have h2 := Real.sin_sq_add_cos_sq l
  have hxy : (primeVertical φ * Real.cos φ * Real.cos l) ^ 2 + (primeVertical φ * Real.cos φ * Real.sin l) ^ 2 =
      primeVertical φ ^ 2 * Real.cos φ ^ 2 := by linear_combination primeVertical φ ^ 2 * Real.cos φ ^ 2 * h2
  have hz : (primeVertical φ * (1 - ellE2) * Real.sin φ) ^ 2 / polar ^ 2 =
      primeVertical φ ^ 2 * (1 - ellE2) * Real.sin φ ^ 2 / equatorial ^ 2 := by
    rw [hE]; field_simp
  rw [hxy, hz, ← add_div, div_eq_one_iff_eq (by positivity)]
  linear_combination hN + primeVertical φ ^ 2 * h1

/-- C39: at height `h` the point is `h` km along the zenith direction from the surface point; the zenith is a unit vector and is
the outward normal of the ellipsoid there (a positive multiple of the gradient of its equation). -/
theorem C39_height_along_normal (l φ h : ℝ) :
    geodedic_to_ecf ⟨l, φ, h⟩ = along (geodedic_to_ecf ⟨l, φ, 0⟩) h (zenith φ l) ∧
    dot (zenith φ l) (zenith φ l) = 1 ∧
    ∃ c > 0, zenith φ l = scale c (ellipsoidGradient (geodedic_to_ecf ⟨l, φ, 0⟩)) := by
  refine ⟨?_, ?_, ?_⟩
  · rw [geodedic_to_ecf_real, geodedic_to_ecf_real]
    ext <;> simp only [along, zenith] <;> ring
  · simp only [dot, zenith]
    linear_combination Real.cos φ ^ 2 * Real.sin_sq_add_cos_sq l + Real.sin_sq_add_cos_sq φ
  · have hN := primeVertical_pos φ
    have hA : (0:ℝ) < equatorial := by rw [equatorial]; norm_num
    have hB : (0:ℝ) < polar := by rw [polar]; norm_num
    have hE : 1 - (ellE2 : ℝ) = (polar / equatorial) ^ 2 := by rw [ellE2_real]; ring
    refine ⟨equatorial ^ 2 / (2 * primeVertical φ), by positivity, ?_⟩
    rw [geodedic_to_ecf_real]
    ext <;> simp only [zenith, scale, ellipsoidGradient, add_zero, hE] <;> field_simp

example : geodedic_to_ecf (⟨0, 0, 0⟩ : Geodedic ℝ) = ⟨6378.137, 0, 0⟩ := by
  rw [geodedic_to_ecf_real]; ext <;> simp [primeVertical, equatorial]

/-! ## C42 -/

/-- the south/east/zenith directions are orthonormal -/
theorem sez_orthonormal (φ l : ℝ) :
    dot (south φ l) (south φ l) = 1 ∧ dot (east l) (east l) = 1 ∧ dot (zenith φ l) (zenith φ l) = 1 ∧
    dot (south φ l) (east l) = 0 ∧ dot (south φ l) (zenith φ l) = 0 ∧ dot (east l) (zenith φ l) = 0 := by
  have h1 := Real.sin_sq_add_cos_sq φ
  have h2 := Real.sin_sq_add_cos_sq l
  refine ⟨?_, ?_, ?_, ?_, ?_, ?_⟩ <;> simp only [dot, south, east, zenith]
  · linear_combination Real.sin φ ^ 2 * h2 + h1
  · linear_combination h2
  · linear_combination Real.cos φ ^ 2 * h2 + h1
  · ring
  · linear_combination Real.sin φ * Real.cos φ * h2
  · ring

/-- C42: the topocentric coordinates are the components of the offset observer → satellite in the orthonormal
south/east/zenith basis of the observer. -/
theorem C42_components (obs : Geodedic ℝ) (sat : Vec3 ℝ) :
    (topocentric obs sat).top_s = dot (south obs.latitude obs.longitude) (sub sat (geodedic_to_ecf obs)) ∧
    (topocentric obs sat).top_e = dot (east obs.longitude) (sub sat (geodedic_to_ecf obs)) ∧
    (topocentric obs sat).top_z = dot (zenith obs.latitude obs.longitude) (sub sat (geodedic_to_ecf obs)) := by
  refine ⟨?_, ?_, ?_⟩ <;>
    simp only [topocentric, Vec3.subtract, sub, dot, south, east, zenith, real_sin, real_cos] <;> ring

/-- C42: lengths are preserved: the squared length of the topocentric vector is the squared distance observer - satellite. -/
theorem C42_isometry (obs : Geodedic ℝ) (sat : Vec3 ℝ) :
    (topocentric obs sat).top_s ^ 2 + (topocentric obs sat).top_e ^ 2 + (topocentric obs sat).top_z ^ 2 =
      len (sub sat (geodedic_to_ecf obs)) ^ 2 := by
  obtain ⟨h1, h2, h3⟩ := C42_components obs sat
  rw [h1, h2, h3]
  generalize sub sat (geodedic_to_ecf obs) = d
  rw [len, Real.sq_sqrt (by simp only [dot]; nlinarith [sq_nonneg d.x, sq_nonneg d.y, sq_nonneg d.z])]
  simp only [dot, south, east, zenith]
  have h1 := Real.sin_sq_add_cos_sq obs.latitude
  have h2 := Real.sin_sq_add_cos_sq obs.longitude
  generalize Real.sin obs.latitude = s at *
  generalize Real.cos obs.latitude = c at *
  generalize Real.sin obs.longitude = t at *
  generalize Real.cos obs.longitude = u at *
  linear_combination ((u * d.x + t * d.y) ^ 2 + d.z ^ 2) * h1 + (d.x ^ 2 + d.y ^ 2) * h2

/-- C42: two satellites are as far apart in topocentric coordinates of one observer as in space. -/
theorem C42_pairwise_isometry (obs : Geodedic ℝ) (p q : Vec3 ℝ) :
    ((topocentric obs p).top_s - (topocentric obs q).top_s) ^ 2 + ((topocentric obs p).top_e - (topocentric obs q).top_e) ^ 2 +
      ((topocentric obs p).top_z - (topocentric obs q).top_z) ^ 2 = dot (sub p q) (sub p q) := by
  simp only [(C42_components obs _).1, (C42_components obs _).2.1, (C42_components obs _).2.2]
  generalize geodedic_to_ecf obs = o
  simp only [dot, south, east, zenith, sub]
  have h1 := Real.sin_sq_add_cos_sq obs.latitude
  have h2 := Real.sin_sq_add_cos_sq obs.longitude
  generalize Real.sin obs.latitude = s at *
  generalize Real.cos obs.latitude = c at *
  generalize Real.sin obs.longitude = t at *
  generalize Real.cos obs.longitude = u at *
  linear_combination ((u * (p.x - q.x) + t * (p.y - q.y)) ^ 2 + (p.z - q.z) ^ 2) * h1 + ((p.x - q.x) ^ 2 + (p.y - q.y) ^ 2) * h2

/-- C42: a point `h` km above the observer (same latitude and longitude, height increased by `h`) has coordinates (0, 0, h). -/
theorem C42_overhead (obs : Geodedic ℝ) (h : ℝ) :
    topocentric obs (geodedic_to_ecf { obs with height := obs.height + h }) = ⟨0, 0, h⟩ := by
  have key : sub (geodedic_to_ecf { obs with height := obs.height + h }) (geodedic_to_ecf obs) =
      scale h (zenith obs.latitude obs.longitude) := by
    rw [geodedic_to_ecf_real, geodedic_to_ecf_real]
    ext <;> simp only [sub, scale, zenith] <;> ring
  obtain ⟨h1, h2, h3⟩ := C42_components obs (geodedic_to_ecf { obs with height := obs.height + h })
  rw [key] at h1 h2 h3
  obtain ⟨o1, o2, o3, o4, o5, o6⟩ := sez_orthonormal obs.latitude obs.longitude
  have hd : ∀ a b : Vec3 ℝ, dot a (scale h b) = h * dot a b := by intro a b; simp only [dot, scale]; ring
  rw [hd, o5, mul_zero] at h1
  rw [hd, o6, mul_zero] at h2
  rw [hd, o3, mul_one] at h3
  cases ht : topocentric obs (geodedic_to_ecf { obs with height := obs.height + h })
  rw [ht] at h1 h2 h3
  simp_all

/-! ## C43 -/

theorem atan2R_half {y x : ℝ} (hx : 0 ≤ x) : atan2R y x ∈ Set.Icc (-(Real.pi / 2)) (Real.pi / 2) := by
  rw [Set.mem_Icc, ← abs_le, atan2R, Complex.abs_arg_le_pi_div_two_iff]
  exact hx

/-- C43: ranges of the look angles. -/
theorem C43_ranges (tc : TopoCentric ℝ) :
    (topocentric_to_look_angles tc).range = Real.sqrt (tc.top_s ^ 2 + tc.top_e ^ 2 + tc.top_z ^ 2) ∧
    (topocentric_to_look_angles tc).elevation ∈ Set.Icc (-(Real.pi / 2)) (Real.pi / 2) ∧
    (topocentric_to_look_angles tc).azimuth ∈ Set.Ioc 0 (2 * Real.pi) := by
  simp only [topocentric_to_look_angles, real_sqrt, real_powi2, real_asin, real_atan2, real_pi]
  refine ⟨trivial, Real.arcsin_mem_Icc _, ?_⟩
  have := atan2R_mem (-tc.top_e) tc.top_s
  rw [Set.mem_Ioc] at this ⊢
  constructor <;> linarith [this.1, this.2]

/-- C43: the look angles determine the topocentric vector (azimuth is measured from north through east). -/
theorem C43_reconstruct (tc : TopoCentric ℝ) (b : Bearing ℝ) (hb : b = topocentric_to_look_angles tc) :
    tc.top_s = -(b.range * Real.cos b.elevation * Real.cos b.azimuth) ∧
    tc.top_e = b.range * Real.cos b.elevation * Real.sin b.azimuth ∧
    tc.top_z = b.range * Real.sin b.elevation := by
  subst hb
  obtain ⟨s, e, z⟩ := tc
  simp only [topocentric_to_look_angles, real_sqrt, real_powi2, real_asin, real_atan2, real_pi]
  set R := Real.sqrt (s ^ 2 + e ^ 2 + z ^ 2) with hR
  have hR2 : R ^ 2 = s ^ 2 + e ^ 2 + z ^ 2 := Real.sq_sqrt (by positivity)
  have hR0 : 0 ≤ R := Real.sqrt_nonneg _
  have hz : R * Real.sin (Real.arcsin (z / R)) = z := by
    rcases eq_or_lt_of_le hR0 with h | h
    · have : s ^ 2 + e ^ 2 + z ^ 2 = 0 := by rw [← hR2, ← h]; ring
      have hz0 : z = 0 := by nlinarith [sq_nonneg s, sq_nonneg e, sq_nonneg z]
      simp [hz0]
    · rw [Real.sin_arcsin]
      · field_simp
      · rw [le_div_iff₀ h]; nlinarith [sq_nonneg s, sq_nonneg e]
      · rw [div_le_iff₀ h]; nlinarith [sq_nonneg s, sq_nonneg e]
  have hc0 : 0 ≤ Real.cos (Real.arcsin (z / R)) := Real.cos_arcsin_nonneg _
  have hc : R * Real.cos (Real.arcsin (z / R)) = Real.sqrt (s ^ 2 + (-e) ^ 2) := by
    have h2 : (R * Real.cos (Real.arcsin (z / R))) ^ 2 = s ^ 2 + (-e) ^ 2 := by
      have := Real.sin_sq_add_cos_sq (Real.arcsin (z / R))
      have hz2 : (R * Real.sin (Real.arcsin (z / R))) ^ 2 = z ^ 2 := by rw [hz]
      linear_combination R ^ 2 * this - hz2 + hR2
    rw [← h2, Real.sqrt_sq (mul_nonneg hR0 hc0)]
  rw [hc, Real.cos_add_pi, Real.sin_add_pi]
  have a1 := atan2R_cos (-e) s
  have a2 := atan2R_sin (-e) s
  refine ⟨by linarith, by linarith, hz.symm⟩

/-- C43 for the public entry point: the range is the distance from the observer to the satellite. -/
theorem C43_ecf_look_angles (obs : Geodedic ℝ) (sat : Vec3 ℝ) :
    (ecf_to_look_angles obs sat).range = len (sub sat (geodedic_to_ecf obs)) ∧
    (ecf_to_look_angles obs sat).elevation ∈ Set.Icc (-(Real.pi / 2)) (Real.pi / 2) ∧
    (ecf_to_look_angles obs sat).azimuth ∈ Set.Ioc 0 (2 * Real.pi) ∧
    dot (zenith obs.latitude obs.longitude) (sub sat (geodedic_to_ecf obs)) =
      (ecf_to_look_angles obs sat).range * Real.sin (ecf_to_look_angles obs sat).elevation ∧
    dot (east obs.longitude) (sub sat (geodedic_to_ecf obs)) =
      (ecf_to_look_angles obs sat).range * Real.cos (ecf_to_look_angles obs sat).elevation *
        Real.sin (ecf_to_look_angles obs sat).azimuth ∧
    dot (south obs.latitude obs.longitude) (sub sat (geodedic_to_ecf obs)) =
      -((ecf_to_look_angles obs sat).range * Real.cos (ecf_to_look_angles obs sat).elevation *
        Real.cos (ecf_to_look_angles obs sat).azimuth) := by
  rw [ecf_to_look_angles]
  obtain ⟨h1, h2, h3⟩ := C43_ranges (topocentric obs sat)
  obtain ⟨r1, r2, r3⟩ := C43_reconstruct (topocentric obs sat) _ rfl
  obtain ⟨c1, c2, c3⟩ := C42_components obs sat
  refine ⟨?_, h2, h3, c3 ▸ r3, c2 ▸ r2, c1 ▸ r1⟩
  rw [h1, C42_isometry, Real.sqrt_sq (by rw [len]; exact Real.sqrt_nonneg _)]

/-- straight up: elevation is π/2 and range is the height difference -/
example (obs : Geodedic ℝ) : (ecf_to_look_angles obs (geodedic_to_ecf { obs with height := obs.height + 400 })).elevation = Real.pi / 2 := by
  rw [ecf_to_look_angles, C42_overhead]
  simp only [topocentric_to_look_angles, real_sqrt, real_powi2, real_asin]
  rw [show Real.sqrt ((0:ℝ) ^ 2 + 0 ^ 2 + 400 ^ 2) = 400 by
    rw [show (0:ℝ) ^ 2 + 0 ^ 2 + 400 ^ 2 = 400 ^ 2 by norm_num]; exact Real.sqrt_sq (by norm_num)]
  norm_num

/-! ## C41 -/

theorem wrapUp_real (l : ℝ) : ∃ k : ℕ, wrapUp l = some (l + k * (2 * Real.pi)) ∧ -Real.pi ≤ l + k * (2 * Real.pi) ∧
    (k = 0 ∨ l + k * (2 * Real.pi) < Real.pi) := by
  have hpi := Real.pi_pos
  obtain ⟨n, hn⟩ := exists_nat_gt ((-l) / Real.pi)
  have hn' : -l < n * Real.pi := by rwa [div_lt_iff₀ hpi] at hn
  clear hn
  rw [wrapUp]
  induction n generalizing l with
  | zero =>
    refine ⟨0, ?_, ?_, Or.inl rfl⟩
    · rw [whileLoop_false]
      · simp
      · simp only [real_flt, real_pi, decide_eq_false_iff_not, not_lt]; simp at hn'; linarith
    · simp at hn' ⊢; linarith
  | succ n ih =>
    by_cases hc : l < -Real.pi
    · rw [whileLoop_true (by simpa using hc)]
      obtain ⟨k, hk1, hk2, hk3⟩ := ih (l + TWO_PI) (by
        rw [real_TWO_PI]; push_cast at hn'; linarith)
      rw [real_TWO_PI] at hk1 hk2 hk3
      rw [real_TWO_PI]
      refine ⟨k + 1, ?_, ?_, ?_⟩
      · rw [hk1]; congr 1; push_cast; ring
      · push_cast; linarith
      · right
        rcases hk3 with h | h
        · subst h; push_cast; linarith
        · push_cast; linarith
    · refine ⟨0, ?_, ?_, Or.inl rfl⟩
      · rw [whileLoop_false (by simpa using hc)]; simp
      · simp; linarith

theorem wrapDown_real (l : ℝ) : ∃ k : ℕ, wrapDown l = some (l - k * (2 * Real.pi)) ∧ l - k * (2 * Real.pi) ≤ Real.pi ∧
    (k = 0 ∨ -Real.pi < l - k * (2 * Real.pi)) := by
  have hpi := Real.pi_pos
  obtain ⟨n, hn⟩ := exists_nat_gt (l / Real.pi)
  have hn' : l < n * Real.pi := by rwa [div_lt_iff₀ hpi] at hn
  clear hn
  rw [wrapDown]
  induction n generalizing l with
  | zero =>
    refine ⟨0, ?_, ?_, Or.inl rfl⟩
    · rw [whileLoop_false]
      · simp
      · simp only [real_flt, real_pi, decide_eq_false_iff_not, not_lt]; simp at hn'; linarith
    · simp at hn' ⊢; linarith
  | succ n ih =>
    by_cases hc : Real.pi < l
    · rw [whileLoop_true (by simpa using hc)]
      obtain ⟨k, hk1, hk2, hk3⟩ := ih (l - TWO_PI) (by
        rw [real_TWO_PI]; push_cast at hn'; linarith)
      rw [real_TWO_PI] at hk1 hk2 hk3
      rw [real_TWO_PI]
      refine ⟨k + 1, ?_, ?_, ?_⟩
      · rw [hk1]; congr 1; push_cast; ring
      · push_cast; linarith
      · right
        rcases hk3 with h | h
        · subst h; push_cast; linarith
        · push_cast; linarith
    · refine ⟨0, ?_, ?_, Or.inl rfl⟩
      · rw [whileLoop_false (by simpa using hc)]; simp
      · simp; linarith

/-- C41 (exact arithmetic): `eci_to_geodedic` returns for every position and every sidereal angle; the longitude is in
[-π, π] and equals `atan2 y x - gmst` up to whole turns; the latitude is in [-π/2, π/2]. -/
theorem C41_longitude_normalised (p : Vec3 ℝ) (gmst : ℝ) :
    ∃ g, eci_to_geodedic p gmst = some g ∧ g.longitude ∈ Set.Icc (-Real.pi) Real.pi ∧
      SameAngle g.longitude (atan2R p.y p.x - gmst) ∧ g.latitude ∈ Set.Icc (-(Real.pi / 2)) (Real.pi / 2) := by
  obtain ⟨k, hk1, hk2, hk3⟩ := wrapUp_real (atan2R p.y p.x - gmst)
  obtain ⟨m, hm1, hm2, hm3⟩ := wrapDown_real (atan2R p.y p.x - gmst + k * (2 * Real.pi))
  simp only [eci_to_geodedic, real_atan2, hk1, hm1]
  refine ⟨_, rfl, ⟨?_, hm2⟩, ⟨(k : ℤ) - m, by push_cast; ring⟩, ?_⟩
  · rcases hm3 with h | h
    · subst h; simpa using hk2
    · exact h.le
  · rw [show (20 : ℕ) = 19 + 1 from rfl]
    have : ∀ n st, ∃ y, (latLoop p.z (Real.sqrt (p.x * p.x + p.y * p.y)) (n + 1) st).1 =
        atan2R y (Real.sqrt (p.x * p.x + p.y * p.y)) := by
      intro n
      induction n with
      | zero => intro st; exact ⟨_, rfl⟩
      | succ n ih => intro st; rw [latLoop]; exact ih _
    obtain ⟨y, hy⟩ := this 19 (atan2R p.z (Arith.sqrt (powi2 p.x + powi2 p.y)), 0.0)
    simp only [real_sqrt]
    simp only [real_sqrt] at hy
    rw [hy]
    exact atan2R_half (Real.sqrt_nonneg _)

/-! ## C40 -/

theorem latLoop_succ (z r : ℝ) (n : ℕ) (st : ℝ × ℝ) : latLoop z r (n + 1) st = latStep z r (latLoop z r n st) := by
  induction n generalizing st with
  | zero => rfl
  | succ n ih => rw [latLoop, ih]; rfl

theorem ecf_axis_radius (g : Geodedic ℝ) (θ : ℝ) (hp : 0 ≤ (primeVertical g.latitude + g.height) * Real.cos g.latitude) :
    Real.sqrt ((ecf_to_eci (geodedic_to_ecf g) θ).x ^ 2 + (ecf_to_eci (geodedic_to_ecf g) θ).y ^ 2) =
      (primeVertical g.latitude + g.height) * Real.cos g.latitude := by
  rw [← Real.sqrt_sq hp]
  congr 1
  rw [geodedic_to_ecf_real]
  simp only [ecf_to_eci, real_sin, real_cos]
  have h1 := Real.sin_sq_add_cos_sq θ
  have h2 := Real.sin_sq_add_cos_sq g.longitude
  linear_combination ((primeVertical g.latitude + g.height) * Real.cos g.latitude) ^ 2 *
    ((Real.cos g.longitude ^ 2 + Real.sin g.longitude ^ 2) * h1 + h2)

/-- C40 is violated: whatever the sidereal angle, for a position with latitude strictly between the equator and a pole and any height above the centre of curvature,
the round trip geodetic → ECF → ECI → geodetic does **not** return the position it started from (latitude and height cannot
both be right).  The reason is the missing square root in the iteration of `eci_to_geodedic`. -/
theorem C40_violated_round_trip (g : Geodedic ℝ) (θ : ℝ) (hlat : g.latitude ∈ Set.Ioo (-(Real.pi / 2)) (Real.pi / 2))
    (h0 : g.latitude ≠ 0) (hh : 0 < primeVertical g.latitude + g.height) :
    ∀ g', eci_to_geodedic (ecf_to_eci (geodedic_to_ecf g) θ) θ = some g' →
      ¬ (g'.latitude = g.latitude ∧ g'.height = g.height) := by
  intro g' hg' ⟨hl, hht⟩
  have hcos : 0 < Real.cos g.latitude := Real.cos_pos_of_mem_Ioo hlat
  have hr0 : 0 < (primeVertical g.latitude + g.height) * Real.cos g.latitude := mul_pos hh hcos
  have hr := ecf_axis_radius g θ hr0.le
  have hz : (ecf_to_eci (geodedic_to_ecf g) θ).z = (primeVertical g.latitude * (1 - ellE2) + g.height) * Real.sin g.latitude := by
    rw [geodedic_to_ecf_real]; rfl
  set p := ecf_to_eci (geodedic_to_ecf g) θ with hp
  clear_value p
  obtain ⟨k, hk1, _⟩ := wrapUp_real (atan2R p.y p.x - θ)
  obtain ⟨m, hm1, _⟩ := wrapDown_real (atan2R p.y p.x - θ + k * (2 * Real.pi))
  simp only [eci_to_geodedic, real_atan2, hk1, hm1, Option.some.injEq] at hg'
  subst hg'
  simp only [real_sqrt, real_powi2, real_cos] at hl hht
  have hr' : Real.sqrt (p.x * p.x + p.y * p.y) = (primeVertical g.latitude + g.height) * Real.cos g.latitude := by
    rw [← hr]; congr 1; ring
  rw [hr', show (20 : ℕ) = 19 + 1 from rfl, latLoop_succ] at hl hht
  generalize latLoop p.z ((primeVertical g.latitude + g.height) * Real.cos g.latitude) 19 _ = st at hl hht
  obtain ⟨φ, c0⟩ := st
  have hc : ∀ r : ℝ, (latStep p.z r (φ, c0)).2 = 1 / (1 - ellE2 * Real.sin φ ^ 2) := by
    intro r; simp only [latStep, real_powi2, real_sin]; norm_num
  rw [hl, hc] at hht
  have e1 : (primeVertical g.latitude + g.height) * Real.cos g.latitude / Real.cos g.latitude =
      primeVertical g.latitude + g.height := by field_simp
  have hA : (ellA : ℝ) = equatorial := rfl
  rw [e1, hA] at hht
  have hN : equatorial * (1 / (1 - ellE2 * Real.sin φ ^ 2)) = primeVertical g.latitude := by linarith
  -- the latitude equation
  simp only [latStep, real_atan2, real_powi2, real_sin] at hl
  have hcc : (1.0 : ℝ) / (1.0 - ellE2 * Real.sin φ ^ 2) = 1 / (1 - ellE2 * Real.sin φ ^ 2) := by norm_num
  rw [show (OfScientific.ofScientific 10 true 1 : ℝ) / (OfScientific.ofScientific 10 true 1 - ellE2 * Real.sin φ ^ 2) =
    1 / (1 - ellE2 * Real.sin φ ^ 2) from hcc, hA, hN, hz] at hl
  set R := (primeVertical g.latitude + g.height) * Real.cos g.latitude with hR
  have a1 := atan2R_cos ((primeVertical g.latitude * (1 - ellE2) + g.height) * Real.sin g.latitude + primeVertical g.latitude * ellE2 * Real.sin φ) R
  have a2 := atan2R_sin ((primeVertical g.latitude * (1 - ellE2) + g.height) * Real.sin g.latitude + primeVertical g.latitude * ellE2 * Real.sin φ) R
  rw [hl] at a1 a2
  have hq : Real.sqrt (R ^ 2 + ((primeVertical g.latitude * (1 - ellE2) + g.height) * Real.sin g.latitude + primeVertical g.latitude * ellE2 * Real.sin φ) ^ 2) = primeVertical g.latitude + g.height := by
    have : (primeVertical g.latitude + g.height) * Real.cos g.latitude = R := rfl
    exact mul_right_cancel₀ hcos.ne' (a1.trans this.symm)
  rw [hq] at a2
  have hE := ellE2_pos
  have hNp := primeVertical_pos g.latitude
  have hs : Real.sin φ = Real.sin g.latitude := by
    have : primeVertical g.latitude * ellE2 * (Real.sin φ - Real.sin g.latitude) = 0 := by linear_combination -a2
    rcases mul_eq_zero.mp this with h | h
    · have := mul_pos hNp hE; linarith
    · linarith
  rw [hs, primeVertical] at hN
  have hw := one_sub_pos (Real.sin g.latitude) (Real.sin_sq_le_one _)
  have hs0 : Real.sin g.latitude ≠ 0 := by
    intro h
    have := (Real.sin_eq_zero_iff_of_lt_of_lt (x := g.latitude) (by linarith [hlat.1, Real.pi_pos]) (by linarith [hlat.2, Real.pi_pos])).mp h
    exact h0 this
  set w := 1 - ellE2 * Real.sin g.latitude ^ 2 with hwdef
  have hw1 : w < 1 := by have := mul_pos hE (by positivity : 0 < Real.sin g.latitude ^ 2); linarith
  have hsw : Real.sqrt w = w := by
    have hpos : 0 < Real.sqrt w := Real.sqrt_pos.mpr (by linarith)
    have hA0 : equatorial ≠ 0 := by rw [equatorial]; norm_num
    rw [← mul_one_div equatorial (Real.sqrt w)] at hN
    have := mul_left_cancel₀ hA0 hN
    rw [one_div, one_div, inv_inj] at this
    exact this.symm
  have := Real.sq_sqrt (show 0 ≤ w by linarith)
  rw [hsw] at this
  nlinarith

theorem sin_cos_eq_same {a b : ℝ} (hc : Real.cos a = Real.cos b) (hs : Real.sin a = Real.sin b) : SameAngle a b := by
  obtain ⟨k, hk⟩ := (Real.Angle.angle_eq_iff_two_pi_dvd_sub).mp (Real.Angle.cos_sin_inj hc hs)
  exact ⟨k, by linarith⟩

/-- C40 holds on the equator: for every longitude, height above the earth's centre and sidereal angle the round trip returns
latitude 0, the same height and the same longitude up to whole turns, normalised to [-π, π]. -/
theorem C40_equator (l h θ : ℝ) (hh : -6378.137 < h) :
    ∃ g', eci_to_geodedic (ecf_to_eci (geodedic_to_ecf ⟨l, 0, h⟩) θ) θ = some g' ∧ g'.latitude = 0 ∧ g'.height = h ∧
      SameAngle g'.longitude l ∧ g'.longitude ∈ Set.Icc (-Real.pi) Real.pi := by
  have hN : primeVertical 0 = 6378.137 := by simp [primeVertical, equatorial]
  have hr0 : (0:ℝ) < 6378.137 + h := by linarith
  have hr := ecf_axis_radius ⟨l, 0, h⟩ θ (by simp only [hN, Real.cos_zero, mul_one]; exact hr0.le)
  simp only [hN, Real.cos_zero, mul_one] at hr
  have hz : (ecf_to_eci (geodedic_to_ecf ⟨l, 0, h⟩) θ).z = 0 := by
    rw [geodedic_to_ecf_real]; simp [ecf_to_eci]
  have hx : (ecf_to_eci (geodedic_to_ecf ⟨l, 0, h⟩) θ).x = (6378.137 + h) * Real.cos (l + θ) := by
    rw [geodedic_to_ecf_real]; simp only [ecf_to_eci, real_cos, real_sin, hN, Real.cos_zero, Real.cos_add]; ring
  have hy : (ecf_to_eci (geodedic_to_ecf ⟨l, 0, h⟩) θ).y = (6378.137 + h) * Real.sin (l + θ) := by
    rw [geodedic_to_ecf_real]; simp only [ecf_to_eci, real_cos, real_sin, hN, Real.cos_zero, Real.sin_add]; ring
  obtain ⟨g', hg, hg1, hg2, _⟩ := C41_longitude_normalised (ecf_to_eci (geodedic_to_ecf ⟨l, 0, h⟩) θ) θ
  have hang : SameAngle (atan2R ((6378.137 + h) * Real.sin (l + θ)) ((6378.137 + h) * Real.cos (l + θ))) (l + θ) := by
    have a1 := atan2R_cos ((6378.137 + h) * Real.sin (l + θ)) ((6378.137 + h) * Real.cos (l + θ))
    have a2 := atan2R_sin ((6378.137 + h) * Real.sin (l + θ)) ((6378.137 + h) * Real.cos (l + θ))
    rw [← hx, ← hy, hr] at a1 a2
    rw [← hx, ← hy]
    rw [hx] at a1
    rw [hy] at a2
    rw [hx, hy] at *
    exact sin_cos_eq_same (mul_left_cancel₀ hr0.ne' a1) (mul_left_cancel₀ hr0.ne' a2)
  refine ⟨g', hg, ?_⟩
  have hat0 : ∀ r : ℝ, 0 < r → atan2R 0 r = 0 := by
    intro r hr
    have := atan2R_polar hr (θ := 0) ⟨by linarith [Real.pi_pos], Real.pi_pos.le⟩
    simpa using this
  have hloop : ∀ n c, 0 < n → latLoop (0:ℝ) (6378.137 + h) n (0, c) = (0, 1) := by
    intro n
    induction n with
    | zero => intro c hn; exact absurd hn (lt_irrefl 0)
    | succ n ih =>
      intro c _
      rw [latLoop]
      have hstep : latStep (0:ℝ) (6378.137 + h) (0, c) = (0, 1) := by
        simp only [latStep, real_sin, Real.sin_zero, real_powi2, real_atan2]
        ext
        · simp only [mul_zero, add_zero]; exact hat0 _ hr0
        · norm_num
      rw [hstep]
      rcases Nat.eq_zero_or_pos n with h | h
      · subst h; rfl
      · exact ih _ h
  rw [hx, hy] at hg2
  generalize ecf_to_eci (geodedic_to_ecf ⟨l, 0, h⟩) θ = p at *
  have hr' : Real.sqrt (p.x * p.x + p.y * p.y) = 6378.137 + h := by rw [← hr]; congr 1; ring
  obtain ⟨k, hk1, _⟩ := wrapUp_real (atan2R p.y p.x - θ)
  obtain ⟨m, hm1, _⟩ := wrapDown_real (atan2R p.y p.x - θ + k * (2 * Real.pi))
  simp only [eci_to_geodedic, real_atan2, hk1, hm1, Option.some.injEq, real_sqrt, real_powi2, hr, hr', hz, hat0 _ hr0,
    hloop 20 _ (by norm_num)] at hg
  refine ⟨by rw [← hg], ?_, ?_, hg1⟩
  · rw [← hg]; simp only [real_cos, Real.cos_zero, ellA]; norm_num
  · obtain ⟨i, hi⟩ := hg2
    obtain ⟨j, hj⟩ := hang
    exact ⟨i + j, by rw [hi, hj]; push_cast; ring⟩

example : (-6378.137 : ℝ) < 35786 := by norm_num

/-- the hypotheses of `C40_violated_round_trip` are met by a station at 45° north, 400 km up -/
example : (Real.pi / 4 : ℝ) ∈ Set.Ioo (-(Real.pi / 2)) (Real.pi / 2) ∧ (Real.pi / 4 : ℝ) ≠ 0 ∧
    0 < primeVertical (Real.pi / 4) + 400 := by
  have := Real.pi_pos
  exact ⟨⟨by linarith, by linarith⟩, by positivity, by linarith [primeVertical_pos (Real.pi / 4)]⟩

end Sat
