import Verif.Props.F64Date
import Verif.Props.F64Observe
import Verif.Props.MotionForce
import Verif.Props.Place
import Mathlib.Analysis.InnerProductSpace.PiL2
/-!
# C90: where to look for the satellite

The whole chain of a user of the crate, in doubles: element set as printed, calendar date, observer; state at the date, Greenwich sidereal time at the
date, rotation to the earth-fixed frame, range, elevation and azimuth.  Compared with the line of sight from the observer to the position that the
published theory gives at exactly that instant, turned by exactly the sidereal angle of that instant.
-/

namespace Sat
open F64 hiding sub
open Spec Spec.R3 Chain

/-! ## Lengths -/

theorem len_eq (a : Vec3 ℝ) : len a = ‖!₂[a.x, a.y, a.z]‖ := by
  rw [EuclideanSpace.norm_eq, len, dot]
  simp [Fin.sum_univ_three, sq]

theorem len_sub_len (a b : Vec3 ℝ) : |len a - len b| ≤ len (sub a b) := by
  rw [len_eq, len_eq, len_eq]
  have : (!₂[(sub a b).x, (sub a b).y, (sub a b).z] : EuclideanSpace ℝ (Fin 3)) = !₂[a.x, a.y, a.z] - !₂[b.x, b.y, b.z] := by
    ext j; fin_cases j <;> rfl
  rw [this]
  exact abs_norm_sub_norm_le _ _

theorem len_nonneg (a : Vec3 ℝ) : 0 ≤ len a := Real.sqrt_nonneg _

theorem len_sq (a : Vec3 ℝ) : len a ^ 2 = a.x ^ 2 + a.y ^ 2 + a.z ^ 2 := by
  rw [len, Real.sq_sqrt (by unfold dot; nlinarith [sq_nonneg a.x, sq_nonneg a.y, sq_nonneg a.z]), dot]; ring

theorem len_le {a : Vec3 ℝ} {ε : ℝ} (h0 : 0 ≤ ε) (hx : |a.x| ≤ ε) (hy : |a.y| ≤ ε) (hz : |a.z| ≤ ε) : len a ≤ 1.7321 * ε := by
  have s : ∀ {w : ℝ}, |w| ≤ ε → w ^ 2 ≤ ε ^ 2 := fun {w} hw => sq_le_sq' (by linarith [(abs_le.mp hw).1]) (abs_le.mp hw).2
  refine abs_le_of_sq_le_sq' ?_ (by positivity) |>.2
  rw [len_sq]
  have := s hx; have := s hy; have := s hz
  nlinarith

/-- the triangle inequality -/
theorem len_sub_le (a b c : Vec3 ℝ) : len (sub a c) ≤ len (sub a b) + len (sub b c) := by
  have h := len_sub_len (sub a c) (sub b c)
  have e : sub (sub a c) (sub b c) = sub a b := by simp [sub]
  rw [e] at h
  have := (abs_le.mp h).2
  linarith

theorem rotZ_len (θ : ℝ) (v w : Vec3 ℝ) : len (sub (rotZ θ v) (rotZ θ w)) = len (sub v w) := by
  unfold len
  congr 1
  simp only [dot, sub, rotZ]
  have := Real.sin_sq_add_cos_sq θ
  linear_combination ((v.x - w.x) ^ 2 + (v.y - w.y) ^ 2) * this

theorem cos_lip (x y : ℝ) : |Real.cos x - Real.cos y| ≤ |x - y| := by
  rw [← Real.sin_add_pi_div_two, ← Real.sin_add_pi_div_two]
  refine (sin_lipschitz _ _).trans (le_of_eq ?_)
  congr 1; ring

/-- turning the same vector by nearly the same angle -/
theorem rotZ_near {θ θ' : ℝ} {k : ℤ} {η B : ℝ} (h : |θ - (θ' + k * (2 * Real.pi))| ≤ η) {v : Vec3 ℝ} (hx : |v.x| ≤ B) (hy : |v.y| ≤ B) :
    len (sub (rotZ (-θ) v) (rotZ (-θ') v)) ≤ 3.4642 * (B * η) := by
  have hη : 0 ≤ η := (abs_nonneg _).trans h
  have hB : 0 ≤ B := (abs_nonneg _).trans hx
  have hs : |Real.sin θ - Real.sin θ'| ≤ η := by
    rw [← Real.sin_add_int_mul_two_pi θ' k]; exact (sin_lipschitz _ _).trans h
  have hc : |Real.cos θ - Real.cos θ'| ≤ η := by
    rw [← Real.cos_add_int_mul_two_pi θ' k]; exact (cos_lip _ _).trans h
  refine (len_le (ε := 2 * (B * η)) (by positivity) ?_ ?_ ?_).trans (le_of_eq (by ring))
  · have e : (sub (rotZ (-θ) v) (rotZ (-θ') v)).x = v.x * (Real.cos θ - Real.cos θ') + v.y * (Real.sin θ - Real.sin θ') := by
      simp only [sub, rotZ, Real.sin_neg, Real.cos_neg]; ring
    rw [e]
    refine (abs_add_bd (abs_mul_bd hx hc) (abs_mul_bd hy hs)).trans (le_of_eq (by ring))
  · have e : (sub (rotZ (-θ) v) (rotZ (-θ') v)).y = v.y * (Real.cos θ - Real.cos θ') - v.x * (Real.sin θ - Real.sin θ') := by
      simp only [sub, rotZ, Real.sin_neg, Real.cos_neg]; ring
    rw [e]
    refine (abs_sub_bd (abs_mul_bd hy hc) (abs_mul_bd hx hs)).trans (le_of_eq (by ring))
  · have e : (sub (rotZ (-θ) v) (rotZ (-θ') v)).z = 0 := by simp [sub, rotZ]
    rw [e, abs_zero]; positivity

/-! ## The specification -/

/-- Range, elevation and azimuth `b` point along the line of sight `L` for an observer at latitude `φ` and longitude `l`, up to `δ` kilometres: range
within `δ`; sine of the elevation within `2 δ / |L|`, elevation between minus and plus a right angle; azimuth (from north through east) within
`4 δ / m` of the direction of `L`, for objects at least `m` off the vertical. -/
def Points (b : Bearing F64) (φ l : ℝ) (L : Vec3 ℝ) (δ : ℝ) : Prop :=
  Close b.range (len L) δ ∧
  b.elevation.Fin ∧ |b.elevation.val| ≤ Real.pi / 2 ∧ |Real.sin b.elevation.val - dot (zenith φ l) L / len L| ≤ 2 * δ / len L ∧
  b.azimuth.Fin ∧ ∀ m, 20 * δ ≤ m → m ^ 2 ≤ dot (south φ l) L ^ 2 + dot (east l) L ^ 2 →
    ∃ α, -dot (south φ l) L = Real.sqrt (dot (south φ l) L ^ 2 + dot (east l) L ^ 2) * Real.cos α ∧
      dot (east l) L = Real.sqrt (dot (south φ l) L ^ 2 + dot (east l) L ^ 2) * Real.sin α ∧
      |b.azimuth.val - α| ≤ 4 * δ / m

theorem Points.mono {b : Bearing F64} {φ l : ℝ} {L : Vec3 ℝ} {δ δ' : ℝ} (h : Points b φ l L δ) (hd0 : 0 < δ) (hd : δ ≤ δ') (h0 : 0 < len L) :
    Points b φ l L δ' := by
  obtain ⟨h1, h2, h3, h4, h5, h6⟩ := h
  refine ⟨⟨h1.1, h1.2.trans hd⟩, h2, h3, h4.trans (by gcongr), h5, fun m hm hm2 => ?_⟩
  have hm0 : 0 < m := lt_of_lt_of_le (by linarith) hm
  obtain ⟨α, k1, k2, k3⟩ := h6 m (by linarith) hm2
  exact ⟨α, k1, k2, k3.trans (by gcongr)⟩

/-- Greenwich sidereal time at a calendar instant: the IAU polynomial at the Julian date, `n` days and the time of day after 1900 March 1 -/
noncomputable def siderealAngle (n : ℕ) (time : DateTimeUtc) : ℝ :=
  gmstSeconds (2415079.5 + n + ((time.hour : ℝ) * 3600 + time.minute * 60 + time.second) / 86400) / 86400 * (2 * Real.pi)

variable [Libm]

set_option maxHeartbeats 2000000 in
/-- look angles of a satellite whose earth-fixed position is known up to `δ` -/
theorem points_near (hL : Libm.Faithful) {g : Geodedic F64} {v : Vec3 F64} (hg : Station g) (hv : v.Bounded) {S : Vec3 ℝ} {δ : ℝ} (hδ0 : 1 / 10 ^ 4 ≤ δ)
    (hδ : δ ≤ 1 / 100) (hS : len (sub v.exact S) ≤ δ) (h1 : 1.1 ≤ len (sub S (geodedic_to_ecf g.exact))) :
    Points (ecf_to_look_angles g v) g.latitude.val g.longitude.val (sub S (geodedic_to_ecf g.exact)) (1.01 * δ) := by
  set O := geodedic_to_ecf g.exact with hO
  have hδ0' : 0 < δ := lt_of_lt_of_le (by norm_num) hδ0
  obtain ⟨t1, t2, t3⟩ := C42_components g.exact v.exact
  obtain ⟨u1, u2, u3⟩ := C42_components g.exact S
  have hpw := C42_pairwise_isometry g.exact v.exact S
  obtain ⟨r1, -, -, -, -, -⟩ := C43_ecf_look_angles g.exact v.exact
  rw [← hO] at t1 t2 t3 u1 u2 u3 r1
  change (topocentric g.exact S).top_s = dot (south g.latitude.val g.longitude.val) (sub S O) at u1
  change (topocentric g.exact S).top_e = dot (east g.longitude.val) (sub S O) at u2
  change (topocentric g.exact S).top_z = dot (zenith g.latitude.val g.longitude.val) (sub S O) at u3
  unfold Points
  rw [← u1, ← u2, ← u3]
  have hlen := len_sub_len (sub v.exact O) (sub S O)
  have eS : sub (sub v.exact O) (sub S O) = sub v.exact S := by simp [Spec.sub]
  rw [eS] at hlen
  have hlen' := hlen.trans hS
  have hV1 : 1 ≤ len (sub v.exact O) := by
    have := (abs_le.mp hlen').1
    first | linarith | (norm_num at *; linarith)
  rw [← r1] at hV1 hlen'
  obtain ⟨c1, c2, c3, c4, c5⟩ := C83_look_angles hL g v hg hv _ hV1 le_rfl
  have hR0 : 0 < len (sub S O) := lt_of_lt_of_le (by norm_num) h1
  -- components
  have hd : dot (sub v.exact S) (sub v.exact S) ≤ δ ^ 2 := by
    have : dot (sub v.exact S) (sub v.exact S) = len (sub v.exact S) ^ 2 := by
      rw [len_sq]; unfold dot; ring
    rw [this]; exact pow_le_pow_left₀ (len_nonneg _) hS 2
  rw [← hpw] at hd
  have comp : |(topocentric g.exact v.exact).top_s - (topocentric g.exact S).top_s| ≤ δ ∧
      |(topocentric g.exact v.exact).top_e - (topocentric g.exact S).top_e| ≤ δ ∧
      |(topocentric g.exact v.exact).top_z - (topocentric g.exact S).top_z| ≤ δ := by
    refine ⟨?_, ?_, ?_⟩ <;> refine abs_le_of_sq_le_sq (le_trans ?_ hd) hδ0'.le
    · nlinarith [sq_nonneg ((topocentric g.exact v.exact).top_e - (topocentric g.exact S).top_e), sq_nonneg ((topocentric g.exact v.exact).top_z - (topocentric g.exact S).top_z)]
    · nlinarith [sq_nonneg ((topocentric g.exact v.exact).top_s - (topocentric g.exact S).top_s), sq_nonneg ((topocentric g.exact v.exact).top_z - (topocentric g.exact S).top_z)]
    · nlinarith [sq_nonneg ((topocentric g.exact v.exact).top_e - (topocentric g.exact S).top_e), sq_nonneg ((topocentric g.exact v.exact).top_s - (topocentric g.exact S).top_s)]
  obtain ⟨d1, d2, d3⟩ := comp
  obtain ⟨a1, a2, a3⟩ := C83_topocentric hL g v hg hv
  obtain ⟨-, -, -, q4, -, -⟩ := C43_ecf_look_angles g.exact v.exact
  have hRv := C42_isometry g.exact v.exact
  rw [← hO] at hRv q4
  rw [← r1] at hRv
  have q4' : (topocentric g.exact v.exact).top_z =
      (ecf_to_look_angles g.exact v.exact).range * Real.sin (ecf_to_look_angles g.exact v.exact).elevation := by rw [t3]; exact q4
  have hRs := C42_isometry g.exact S
  rw [← hO] at hRs
  have t23 := (topocentric g.exact v.exact).top_s
  have hup : (ecf_to_look_angles g.exact v.exact).range ≤ 1000000 := by
    have b1 := (u_ts hL hg hv).mag
    have b2 := (u_te hL hg hv).mag
    have b3 := (u_tz hL hg hv).mag
    refine abs_le_of_sq_le_sq' ?_ (by norm_num) |>.2
    have s : ∀ {w b : ℝ}, |w| ≤ b → w ^ 2 ≤ b ^ 2 := fun {w b} hw => sq_le_sq' (by linarith [(abs_le.mp hw).1]) (abs_le.mp hw).2
    have := s b1; have := s b2; have := s b3
    rw [← hRv]; first | linarith | (norm_num at *; linarith)
  have elev : |(ecf_to_look_angles g v).elevation.val| ≤ Real.pi / 2 := by
    have w : ∀ {x : F64} {y b : ℝ}, Close x y (3 / 10 ^ 9) → |y| ≤ b → b ≤ 400000 → Bd x 450 := by
      intro x y b h1 h2 h3
      refine ⟨h1.1, ?_⟩
      have ht : (2:ℝ) ^ 20 ≤ 2 ^ 450 := pow_le_pow_right₀ (by norm_num) (by norm_num)
      have := h1.2
      have e : x.val = y + (x.val - y) := by ring
      have h4 : |x.val| ≤ b + 3 / 10 ^ 9 := by rw [e]; exact (abs_add_le _ _).trans (add_le_add h2 this)
      have h5 : b + 3 / 10 ^ 9 ≤ (2:ℝ) ^ 20 := by first | linarith | (norm_num at *; linarith)
      exact (h4.trans h5).trans ht
    have big : 1 / 2 ^ 511 ≤ |(topocentric g v).top_s.val| ∨ 1 / 2 ^ 511 ≤ |(topocentric g v).top_e.val| ∨ 1 / 2 ^ 511 ≤ |(topocentric g v).top_z.val| := by
      have ht : (1 : ℝ) / 2 ^ 511 ≤ 1 / 2 ^ 10 := one_div_le_one_div_of_le (by positivity) (pow_le_pow_right₀ (by norm_num) (by norm_num))
      by_contra hc
      rw [not_or, not_or, not_le, not_le, not_le] at hc
      obtain ⟨k1, k2, k3⟩ := hc
      have k : ∀ {p q : ℝ}, |p - q| ≤ 3 / 10 ^ 9 → |p| < 1 / 2 ^ 511 → q ^ 2 ≤ (1 / 2 ^ 9) ^ 2 := fun {p q} h1 h2 => by
        have e : q = p - (p - q) := by ring
        have h3 : |q| ≤ 1 / 2 ^ 9 := by
          rw [e]; refine (abs_sub _ _).trans ?_
          have h4 : |p| ≤ 1 / 2 ^ 10 := h2.le.trans ht
          clear h2 ht
          first | linarith | (norm_num at *; linarith)
        exact sq_le_sq' (by linarith [(abs_le.mp h3).1]) (abs_le.mp h3).2
      have k4 := k a1.2 k1
      have k5 := k a2.2 k2
      have k6 := k a3.2 k3
      have k7 : (1:ℝ) ^ 2 ≤ (ecf_to_look_angles g.exact v.exact).range ^ 2 := pow_le_pow_left₀ (by norm_num) hV1 2
      rw [← hRv] at k7
      clear k1 k2 k3 ht
      first | linarith | (norm_num at *; linarith)
    obtain ⟨-, -, -, k4, -⟩ := C43_f64_ranges hL (topocentric g v) (w a1 (u_ts hL hg hv).mag (by norm_num)) (w a2 (u_te hL hg hv).mag (by norm_num))
      (w a3 (u_tz hL hg hv).mag (by norm_num)) big
    refine k4.trans ?_
    rw [fracPi2_val.2]
    have := Real.pi_gt_d20
    first | linarith | (norm_num at *; linarith)
  refine ⟨⟨c1.1, ?_⟩, c2, elev, ?_, c4, ?_⟩
  · refine (abs_sub_le _ (ecf_to_look_angles g.exact v.exact).range _).trans ((add_le_add c1.2 hlen').trans ?_)
    first | linarith | (norm_num at *; linarith)
  · have hRv0 : 0 < (ecf_to_look_angles g.exact v.exact).range := lt_of_lt_of_le one_pos hV1
    have hzs : |(topocentric g.exact S).top_z| ≤ len (sub S O) := by
      refine abs_le_of_sq_le_sq ?_ hR0.le
      rw [← hRs]; nlinarith [sq_nonneg (topocentric g.exact S).top_s, sq_nonneg (topocentric g.exact S).top_e]
    have hup2 : len (sub S O) ≤ 1.01 * (ecf_to_look_angles g.exact v.exact).range := by
      have := (abs_le.mp hlen').1
      first | linarith | (norm_num at *; linarith)
    have hσ := Real.abs_sin_le_one (ecf_to_look_angles g.exact v.exact).elevation
    rw [le_div_iff₀ hR0, ← abs_of_pos hR0, ← abs_mul, abs_of_pos hR0, sub_mul, div_mul_cancel₀ _ hR0.ne']
    have k1 : |(Real.sin (ecf_to_look_angles g v).elevation.val - Real.sin (ecf_to_look_angles g.exact v.exact).elevation) * len (sub S O)| ≤ 0.01 * δ := by
      refine (abs_mul_bd c3 (le_of_eq (abs_of_pos hR0))).trans ?_
      have e1 : 1 / 10 ^ 7 / (ecf_to_look_angles g.exact v.exact).range * len (sub S O) ≤ 1.01 / 10 ^ 7 := by
        rw [div_mul_eq_mul_div, div_le_iff₀ hRv0]; first | linarith | (norm_num at *; linarith)
      rw [add_mul]
      first | linarith | (norm_num at *; linarith)
    have k2 := abs_mul_bd hσ hlen'
    have e : Real.sin (ecf_to_look_angles g v).elevation.val * len (sub S O) - (topocentric g.exact S).top_z =
        (Real.sin (ecf_to_look_angles g v).elevation.val - Real.sin (ecf_to_look_angles g.exact v.exact).elevation) * len (sub S O) -
        Real.sin (ecf_to_look_angles g.exact v.exact).elevation * ((ecf_to_look_angles g.exact v.exact).range - len (sub S O)) +
        ((topocentric g.exact v.exact).top_z - (topocentric g.exact S).top_z) := by rw [q4']; ring
    rw [e]
    refine (abs_add_bd (abs_sub_bd k1 k2) d3).trans ?_
    first | linarith | (norm_num at *; linarith)
  · intro m hm hm2
    have hm0 : 0 < m := lt_of_lt_of_le (by positivity) hm
    have hmδ : 20 * δ ≤ m := by first | linarith | (norm_num at *; linarith)
    have hm1 : m ≤ 1000001 := by
      refine abs_le_of_sq_le_sq' ?_ (by norm_num) |>.2
      have h3 : len (sub S O) ≤ 1000001 := by have := (abs_le.mp hlen').1; first | linarith | (norm_num at *; linarith)
      have h4 : len (sub S O) ^ 2 ≤ 1000001 ^ 2 := pow_le_pow_left₀ hR0.le h3 2
      rw [← hRs] at h4
      nlinarith [sq_nonneg (topocentric g.exact S).top_z]
    have sq2 : ∀ {p q : ℝ}, |p - q| ≤ δ → q ^ 2 / 2 - δ ^ 2 ≤ p ^ 2 := by
      intro p q h
      have h3 : (p - q) ^ 2 ≤ δ ^ 2 := sq_le_sq' (by linarith [(abs_le.mp h).1]) (abs_le.mp h).2
      nlinarith [sq_nonneg (2 * p - q)]
    have hmm : (20 * δ) ^ 2 ≤ m ^ 2 := pow_le_pow_left₀ (by positivity) hmδ 2
    obtain ⟨k, hk⟩ := c5 (m / 2) (by first | linarith | (norm_num at *; linarith)) (by
      have := sq2 d1; have := sq2 d2
      nlinarith)
    obtain ⟨j, hj⟩ := angle_near (x := (topocentric g.exact v.exact).top_s) (y := -(topocentric g.exact v.exact).top_e) (a := (topocentric g.exact S).top_s)
      (b := -(topocentric g.exact S).top_e) (ε := δ) (m := m) d1 (by rw [neg_sub_neg, abs_sub_comm]; exact d2) hm0 (by rw [neg_sq]; exact hm2) (by linarith)
    have ex : (ecf_to_look_angles g.exact v.exact).azimuth = atan2R (-(topocentric g.exact v.exact).top_e) (topocentric g.exact v.exact).top_s + Real.pi := rfl
    obtain ⟨ρ', hρ', qx, qy⟩ := atan2_polar (-(topocentric g.exact S).top_e) (topocentric g.exact S).top_s
    rw [neg_sq] at hρ'
    set β := atan2R (-(topocentric g.exact S).top_e) (topocentric g.exact S).top_s with hβ
    refine ⟨β + Real.pi + ((j + k : ℤ) : ℝ) * (2 * Real.pi), ?_, ?_, ?_⟩
    · rw [Real.cos_add_int_mul_two_pi, Real.cos_add_pi, ← hρ']; linarith
    · rw [Real.sin_add_int_mul_two_pi, Real.sin_add_pi, ← hρ']; linarith
    · rw [ex] at hk
      have e : (ecf_to_look_angles g v).azimuth.val - (β + Real.pi + ((j + k : ℤ) : ℝ) * (2 * Real.pi)) =
          ((ecf_to_look_angles g v).azimuth.val - (atan2R (-(topocentric g.exact v.exact).top_e) (topocentric g.exact v.exact).top_s + Real.pi + k * (2 * Real.pi))) +
          (atan2R (-(topocentric g.exact v.exact).top_e) (topocentric g.exact v.exact).top_s - (β + j * (2 * Real.pi))) := by push_cast; ring
      rw [e]
      refine (abs_add_bd hk hj).trans ?_
      rw [le_div_iff₀ hm0, add_mul, add_mul, div_mul_cancel₀ _ hm0.ne']
      have e2 : 2 / 10 ^ 8 / (m / 2) * m = 4 / 10 ^ 8 := by field_simp; norm_num
      rw [e2]
      first | linarith | (norm_num at *; linarith)

/-! ## The chain -/

omit [Libm] in
/-- sidereal time moves by one turn in a little less than a day -/
theorem gmst_lipschitz {x y : ℝ} (hx : |x - 2451545| ≤ 36525) (hy : |y - 2451545| ≤ 36525) :
    |gmstSeconds x / 86400 * (2 * Real.pi) - gmstSeconds y / 86400 * (2 * Real.pi)| ≤ 6.4 * |x - y| := by
  unfold gmstSeconds
  have hx' : |(x - 2451545) / 36525| ≤ 1 := by rw [abs_div, abs_of_pos (by norm_num : (0:ℝ) < 36525), div_le_one (by norm_num)]; exact hx
  have hy' : |(y - 2451545) / 36525| ≤ 1 := by rw [abs_div, abs_of_pos (by norm_num : (0:ℝ) < 36525), div_le_one (by norm_num)]; exact hy
  have e : x - y = 36525 * ((x - 2451545) / 36525 - (y - 2451545) / 36525) := by ring
  rw [e]
  generalize (x - 2451545) / 36525 = a at *
  generalize (y - 2451545) / 36525 = b at *
  dsimp only
  have hpi := Real.pi_lt_d6
  have hpi0 := Real.pi_pos
  rw [abs_mul, abs_of_pos (by norm_num : (0:ℝ) < 36525)]
  have e2 : (67310.54841 + (876600 * 3600 + 8640184.812866) * a + 0.093104 * a ^ 2 - 6.2e-6 * a ^ 3) / 86400 * (2 * Real.pi) -
      (67310.54841 + (876600 * 3600 + 8640184.812866) * b + 0.093104 * b ^ 2 - 6.2e-6 * b ^ 3) / 86400 * (2 * Real.pi) =
      (((876600 * 3600 + 8640184.812866) + 0.093104 * (a + b) - 6.2e-6 * (a ^ 2 + a * b + b ^ 2)) / 86400 * (2 * Real.pi)) * (a - b) := by ring
  rw [e2, abs_mul]
  refine (mul_le_mul_of_nonneg_right (b := |(876600 * 3600 + 8640184.812866 + 0.093104 * (a + b) - 6.2e-6 * (a ^ 2 + a * b + b ^ 2)) / 86400 * (2 * Real.pi)|)
    (c := 6.4 * 36525) ?_ (abs_nonneg _)).trans (le_of_eq (by ring))
  have h1 := abs_mul_bd hx' hx'
  have h2 := abs_mul_bd hx' hy'
  have h3 := abs_mul_bd hy' hy'
  rw [abs_le] at hx' hy' h1 h2 h3
  have e3 : |(876600 * 3600 + 8640184.812866) + 0.093104 * (a + b) - 6.2e-6 * (a ^ 2 + a * b + b ^ 2)| ≤ 3164400185 := by
    rw [abs_le, sq, sq]; constructor <;> norm_num at * <;> linarith
  generalize (876600 * 3600 + 8640184.812866) + 0.093104 * (a + b) - 6.2e-6 * (a ^ 2 + a * b + b ^ 2) = z at *
  have e4 : |z / 86400| ≤ 3164400185 / 86400 := by
    rw [abs_div, abs_of_pos (by norm_num : (0:ℝ) < 86400)]; gcongr
  have e5 : |2 * Real.pi| ≤ 2 * 3.141593 := by rw [abs_of_pos (by positivity)]; linarith
  exact (abs_mul_bd e4 e5).trans (by norm_num)

/-- Greenwich sidereal time of a calendar instant in doubles -/
theorem sidereal_f64 (time : DateTimeUtc) (d : Date) (hd : d.InRange) (hy : time.year = d.year) (hm : time.month = d.month) (hdd : time.day = d.day)
    (hh : time.hour < 24) (hmi : time.minute < 60) (hse : time.second < 60) (nD : ℕ) (hn : base.after nD = d) (hn2 : nD ≤ 72000) :
    (gstime_datetime time : F64).Fin ∧ |(gstime_datetime time : F64).val| ≤ 10 ∧ ∃ k : ℤ, |(gstime_datetime time : F64).val - (siderealAngle nD time + k * (2 * Real.pi))| ≤ 4 / 10 ^ 9 := by
  obtain ⟨n, d1, d2, d3⟩ := C34_f64_error ⟨d, time.hour, time.minute, time.second, 0⟩ ⟨hd.1, hh, hmi, hse, by norm_num⟩ hd
  have ej : (jday_datetime time : F64) = jdOf ⟨d, time.hour, time.minute, time.second, 0⟩ := by
    unfold jday_datetime jdOf
    rw [hy, hm, hdd]; rfl
  have hnn : n = nD := by
    have e1 := (serial_after n).2.2
    have e2 := (serial_after nD).2.2
    change base.after n = d at d1
    rw [d1] at e1; rw [hn] at e2; omega
  subst hnn
  have bT : ((Instant.msOfDay ⟨d, time.hour, time.minute, time.second, 0⟩ : ℕ) : ℝ) / 86400000 =
      ((time.hour : ℝ) * 3600 + time.minute * 60 + time.second) / 86400 := by
    simp only [Instant.msOfDay]; push_cast; ring
  rw [bT] at d3
  unfold gstime_datetime
  rw [ej]
  generalize jdOf ⟨d, time.hour, time.minute, time.second, 0⟩ = X at *
  have t1 : (time.hour : ℝ) ≤ 23 := by exact_mod_cast (by omega : time.hour ≤ 23)
  have t2 : (time.minute : ℝ) ≤ 59 := by exact_mod_cast (by omega : time.minute ≤ 59)
  have t3 : (time.second : ℝ) ≤ 59 := by exact_mod_cast (by omega : time.second ≤ 59)
  have p1 : (0 : ℝ) ≤ time.hour := Nat.cast_nonneg _
  have p2 : (0 : ℝ) ≤ time.minute := Nat.cast_nonneg _
  have p3 : (0 : ℝ) ≤ time.second := Nat.cast_nonneg _
  have p4 : (0 : ℝ) ≤ n := Nat.cast_nonneg _
  have p5 : (n : ℝ) ≤ 72000 := by exact_mod_cast hn2
  have hY : |2415079.5 + n + ((time.hour : ℝ) * 3600 + time.minute * 60 + time.second) / 86400 - 2451545| ≤ 36525 - 1 := by
    rw [abs_le]; constructor <;> norm_num <;> linarith
  have hX : |X.val - 2451545| ≤ 36525 := by
    have e : X.val - 2451545 = (X.val - (2415079.5 + n + ((time.hour : ℝ) * 3600 + time.minute * 60 + time.second) / 86400)) +
      (2415079.5 + n + ((time.hour : ℝ) * 3600 + time.minute * 60 + time.second) / 86400 - 2451545) := by ring
    rw [e]
    refine (abs_add_bd d3 hY).trans (by norm_num)
  obtain ⟨g1, g2, g3, k, g4⟩ := C79_gstime_accuracy X d2 hX
  refine ⟨g1, by rw [abs_of_nonneg g2]; have := Real.pi_lt_d2; linarith, k, ?_⟩
  have h := (gmst_lipschitz hX (hY.trans (by norm_num))).trans (mul_le_mul_of_nonneg_left d3 (by norm_num))
  have e : (gstime X).val - (siderealAngle n time + k * (2 * Real.pi)) = ((gstime X).val - (gmstSeconds X.val / 86400 * (2 * Real.pi) + k * (2 * Real.pi))) +
      (gmstSeconds X.val / 86400 * (2 * Real.pi) - siderealAngle n time) := by ring
  rw [e]
  refine (abs_add_bd g4 h).trans (by norm_num)

omit [Libm] in
/-- distance of the satellite from the centre of the earth -/
theorem position_bound {q : Orbit} {t : ℝ} (Q : Quiet q t) (node E : ℝ) (j : Fin 3) : |(q.mean node t).positionKm E j| ≤ 20300 := by
  obtain ⟨h1, h2, h3⟩ := Q.shape node
  obtain ⟨e0, e1⟩ := Q.ecc
  obtain ⟨v1, v2⟩ := abs_le.mp h1
  have he0 : 0 ≤ (q.mean node t).e := le_max_of_le_right (by norm_num)
  obtain ⟨-, -, r0, r1, -, -, hrk, -, -⟩ := perturbation_bounds (q.mean node t) E ⟨he0, by norm_num at *; linarith⟩ (le_trans (by norm_num) h2)
  obtain ⟨q1, q2⟩ := abs_le.mp hrk
  obtain ⟨U1, -⟩ := frame_le_one (q.mean node t) E j
  show |(q.mean node t).rk E * (q.mean node t).Uvec E j * kmPerRadius| ≤ _
  have hk : |(q.mean node t).rk E| ≤ 3.17 := by
    rw [abs_le]; constructor <;> norm_num at * <;> linarith
  have hR : |kmPerRadius| ≤ 6378.137 := by unfold kmPerRadius; rw [abs_of_pos (by norm_num)]
  exact (abs_mul_bd (abs_mul_bd hk U1) hR).trans (by norm_num)

omit [Libm] in
theorem epoch_days {n y : ℕ} (hy : 1957 ≤ y) (hy2 : y ≤ 2056) (h : base.after n = ⟨y, 1, 1⟩) : n ≤ 60000 := by
  have h1 := serial_lt (a := ⟨y, 1, 1⟩) ⟨by simp, by simp, by simp, by simp [monthLength, monthLengthOf]⟩ (b := ⟨2057, 1, 1⟩) (by decide) (by simp; omega)
    (by simp only [Date.before]; omega)
  have h2 := (serial_after n).2.2
  rw [h] at h2
  have h3 : serial ⟨2057, 1, 1⟩ ≤ 60000 := by decide +kernel
  omega

set_option maxHeartbeats 1000000 in
/-- **C90.** For every element set of an ordinary low orbit as printed, every date and time of day within a month of the printed epoch, and every observer:
the state at the date exists, and the range, elevation and azimuth computed from it, from the sidereal time of the date and from the observer's
coordinates point along the line from the observer to the position of the published theory at exactly the instant asked for, up to 8 metres. -/
theorem C90_look_angles_f64 (hL : Libm.Faithful) (l1 l2 : Str) (v : Tle) (h : Printed l1 l2 v) (hpos : v.nddotNeg = false ∨ v.nddotMant = 0)
    (hnd : Normal v.nddotMant) (hb : Normal v.bstarMant) (hday : v.dayE8 ≤ 400 * 10 ^ 8) (hl : LowTle v 0)
    (time : DateTimeUtc) (d : Date) (hd : d.InRange) (hy : time.year = d.year) (hm : time.month = d.month) (hdd : time.day = d.day)
    (hh : time.hour < 24) (hmi : time.minute < 60) (hse : time.second < 60) (g : Geodedic F64) (hg : Station g) :
    ∃ (s : Satrec F64) (year nE nD : ℕ), twoline2satrec l1 l2 = .ok s ∧
      1957 ≤ year ∧ year ≤ 2056 ∧ (year : ℤ) % 100 = v.year ∧ base.after nE = ⟨year, 1, 1⟩ ∧ base.after nD = d ∧
      let τ : ℝ := ((nD : ℝ) - nE + 1 - (v.dayE8 : ℝ) / 10 ^ 8) * 1440 + time.hour * 60 + time.minute + (time.second : ℝ) / 60
      |τ| ≤ 43199 → |tleDrag v * τ| * tleLow v ^ 5 ≤ 1.99 →
        let m := (tleOrbit v).mean (tleNode v) τ
        ∃ (p : SGP4Result F64) (E : ℝ) (O : Vec3 ℝ), propogate_datetime s time = some (.ok p) ∧
          m.kepler E = 0 ∧ (∀ E', m.kepler E' = 0 → E' = E) ∧ Stands g.exact O ∧
          let L := sub (rotZ (-siderealAngle nD time) (vec (m.positionKm E))) O
          1.1 ≤ len L →
            Points (ecf_to_look_angles g (eci_to_ecf p.position (gstime_datetime time))) g.latitude.val g.longitude.val L (8 / 10 ^ 3) := by
  obtain ⟨s, year, nE, nD, hs, y1, y2, y3, y4, y5, hh'⟩ := C85_state_at_date_f64 hL l1 l2 v h hpos hnd hb hday hl time d hd hy hm hdd hh hmi hse
  refine ⟨s, year, nE, nD, hs, y1, y2, y3, y4, y5, ?_⟩
  intro τ h1 h2 m
  obtain ⟨p, k1, E, k2, k3, k4, -⟩ := hh' h1 h2
  refine ⟨p, E, geodedic_to_ecf g.exact, k1, k2, k3, stands_ecf _, ?_⟩
  intro L hLen
  have hQ : Quiet (tleOrbit v) τ := quiet_low hL h hpos hnd hb { hl with time := h1.trans (by norm_num), drag := h2.trans (by norm_num) }
  have hB := position_bound hQ (tleNode v) E
  have hn : nD ≤ 72000 := by
    have b1 := epoch_days y1 y2 y4
    have hd8 : (v.dayE8 : ℝ) / 10 ^ 8 ≤ 400 := by
      rw [div_le_iff₀ (by positivity)]; exact_mod_cast hday
    have p1 : (0 : ℝ) ≤ time.hour := Nat.cast_nonneg _
    have p2 : (0 : ℝ) ≤ time.minute := Nat.cast_nonneg _
    have p3 : (0 : ℝ) ≤ (time.second : ℝ) / 60 := by positivity
    have b2 : (nE : ℝ) ≤ 60000 := by exact_mod_cast b1
    have b3 := (abs_le.mp h1).2
    have b4 : (nD : ℝ) ≤ 72000 := by
      have : τ = ((nD : ℝ) - nE + 1 - (v.dayE8 : ℝ) / 10 ^ 8) * 1440 + time.hour * 60 + time.minute + (time.second : ℝ) / 60 := rfl
      linarith
    exact_mod_cast b4
  obtain ⟨g1, -, k, g2⟩ := sidereal_f64 time d hd hy hm hdd hh hmi hse nD y5 hn
  have hx := k4.1
  have hy' := k4.2.1
  have hz := k4.2.2
  have comp : ∀ {x : F64} {r : ℝ}, Close x r (4.3 / 10 ^ 3) → |r| ≤ 20300 → Within x 100000 := by
    intro x r a1 a2
    refine ⟨a1.1, ?_⟩
    have e : x.val = (x.val - r) + r := by ring
    rw [e]; exact (abs_add_bd a1.2 a2).trans (by norm_num)
  have hbd : p.position.Bounded := ⟨comp hx (hB 0), comp hy' (hB 1), comp hz (hB 2)⟩
  obtain ⟨f, -⟩ := C83_frames hL p.position (gstime_datetime time) hbd g1
  set w := eci_to_ecf p.position (gstime_datetime time) with hw
  rw [(C38_rotations _ _).2] at f
  -- the earth-fixed position
  have s1 : len (sub w.exact (rotZ (-(gstime_datetime time : F64).val) p.position.exact)) ≤ 1.7321 * (1 / 10 ^ 9) :=
    len_le (by norm_num) f.1.2 f.2.1.2 f.2.2.2
  have s2 : len (sub (rotZ (-(gstime_datetime time : F64).val) p.position.exact) (rotZ (-(gstime_datetime time : F64).val) (vec (m.positionKm E)))) ≤
      1.7321 * (4.3 / 10 ^ 3) := by
    rw [rotZ_len]
    exact len_le (by norm_num) hx.2 hy'.2 hz.2
  have s3 := rotZ_near g2 (v := vec (m.positionKm E)) (hB 0) (hB 1)
  have s4 := len_sub_le w.exact (rotZ (-(gstime_datetime time : F64).val) p.position.exact) (rotZ (-siderealAngle nD time) (vec (m.positionKm E)))
  have s5 := len_sub_le (rotZ (-(gstime_datetime time : F64).val) p.position.exact) (rotZ (-(gstime_datetime time : F64).val) (vec (m.positionKm E)))
    (rotZ (-siderealAngle nD time) (vec (m.positionKm E)))
  have wb : w.Bounded := by
    have pb : ∀ {x : F64} {r : ℝ}, Close x r (4.3 / 10 ^ 3) → |r| ≤ 20300 → |x.val| ≤ 20301 := by
      intro x r a1 a2
      have e : x.val = (x.val - r) + r := by ring
      rw [e]; exact (abs_add_bd a1.2 a2).trans (by norm_num)
    have b1 := pb hx (hB 0)
    have b2 := pb hy' (hB 1)
    have b3 := pb hz (hB 2)
    have hs := Real.abs_sin_le_one (-(gstime_datetime time : F64).val)
    have hc := Real.abs_cos_le_one (-(gstime_datetime time : F64).val)
    have one : ∀ {x : F64} {r : ℝ}, Close x r (1 / 10 ^ 9) → |r| ≤ 41000 → Within x 100000 := by
      intro x r a1 a2
      refine ⟨a1.1, ?_⟩
      have e : x.val = (x.val - r) + r := by ring
      rw [e]; exact (abs_add_bd a1.2 a2).trans (by norm_num)
    exact ⟨one f.1 ((abs_sub_bd (abs_mul_bd b1 hc) (abs_mul_bd b2 hs)).trans (by norm_num)),
      one f.2.1 ((abs_add_bd (abs_mul_bd b1 hs) (abs_mul_bd b2 hc)).trans (by norm_num)), one f.2.2 (b3.trans (by norm_num))⟩
  have := points_near hL hg wb (δ := 7.9 / 10 ^ 3) (S := rotZ (-siderealAngle nD time) (vec (m.positionKm E))) (by norm_num) (by norm_num)
    (by norm_num at s1 s2 s3 s4 s5 ⊢; linarith) hLen
  exact this.mono (by norm_num) (by norm_num) (lt_of_lt_of_le (by norm_num) hLen)

/-! ## Observers on the ground -/

omit [Libm] in
theorem radius_low (m : Mean) (E : ℝ) (he : 0 ≤ m.e ∧ m.e ≤ 1 / 2) (hp : 1 ≤ m.a * (1 - m.e)) : m.a * (1 - m.e) - 0.00156 ≤ m.r E := by
  obtain ⟨he0, he1⟩ := he
  have ha1 : 1 ≤ m.a := by
    by_contra h
    push Not at h
    nlinarith
  have ha0 : 0 < m.a := by linarith
  have hE2 : 3 / 4 ≤ 1 - m.e ^ 2 := by nlinarith
  set c := longAy m.i / (m.a * (1 - m.e ^ 2)) with hc
  have hac : m.a * |c| ≤ 0.00156 := by
    have h1 : m.a * |c| = |longAy m.i| / (1 - m.e ^ 2) := by
      rw [hc, abs_div, abs_of_pos (by positivity : 0 < m.a * (1 - m.e ^ 2))]
      field_simp
    rw [h1, div_le_iff₀ (by linarith)]
    have := longAy_small m.i
    calc _ ≤ 0.00117 := this
      _ ≤ 0.00156 * (3 / 4) := by norm_num
      _ ≤ _ := by gcongr
  have h1 : m.eL2 = m.e ^ 2 + 2 * m.e * (Real.sin m.ω * c) + c ^ 2 := by
    unfold Mean.eL2 Mean.axN Mean.ayN
    rw [← hc]
    linear_combination m.e ^ 2 * Real.sin_sq_add_cos_sq m.ω
  have h2 : |Real.sin m.ω * c| ≤ |c| := by
    have := abs_mul_bd (Real.abs_sin_le_one m.ω) (le_refl |c|)
    linarith
  have hf : m.eL2 ≤ (m.e + |c|) ^ 2 := by
    rw [h1, add_sq, sq_abs]
    have : 2 * m.e * (Real.sin m.ω * c) ≤ 2 * m.e * |c| := by gcongr; exact (le_abs_self _).trans h2
    linarith
  obtain ⟨d1, -⟩ := newton_denominator hf (by positivity) E
  have hr : m.r E = m.a * (1 - m.axN * Real.cos E - m.ayN * Real.sin E) := by unfold Mean.r Mean.ecosE; ring
  rw [hr]
  calc _ ≤ m.a * (1 - (m.e + |c|)) := by linarith
    _ ≤ _ := by gcongr

omit [Libm] in
/-- a quiet low orbit never comes more than 60 km below the perigee of the mean orbit at the epoch -/
theorem position_high {q : Orbit} {t : ℝ} (Q : Quiet q t) (node E : ℝ) : 6378.137 * (q.a * (1 - q.e)) - 60 ≤ len (vec ((q.mean node t).positionKm E)) := by
  obtain ⟨h1, h2, -⟩ := Q.shape node
  obtain ⟨_, _, _, _, _, D⟩ := Q.drift node
  have ha := Q.a_lo
  have hp := Q.per
  have hx := Q.axis
  obtain ⟨e0, e1⟩ := Q.ecc
  obtain ⟨v1, v2⟩ := abs_le.mp h1
  obtain ⟨v3, v4⟩ := abs_le.mp D.va
  have hma : (q.mean node t).a = q.aT t := rfl
  have he0 : 0 ≤ (q.mean node t).e := le_max_of_le_right (by norm_num)
  have he2 : (q.mean node t).e ≤ 1 / 2 := by norm_num at *; linarith
  have hper : q.a * (1 - q.e) - 0.00342 ≤ (q.mean node t).a * (1 - (q.mean node t).e) := by
    rw [hma]
    have h3 : 0.99905 * q.a ≤ q.aT t := by norm_num at *; linarith
    have h4 : 1 - q.e - 0.00076 ≤ 1 - (q.mean node t).e := by linarith
    have h5 : 0 ≤ 1 - q.e - 0.00076 := by norm_num at *; linarith
    calc q.a * (1 - q.e) - 0.00342 ≤ 0.99905 * q.a * (1 - q.e - 0.00076) := by
          have : 0 ≤ q.a * q.e := mul_nonneg (le_trans (by norm_num) ha) e0
          norm_num at hx ⊢; linarith
      _ ≤ _ := mul_le_mul h3 h4 h5 (by norm_num at *; linarith)
  have hp1 : 1 ≤ (q.mean node t).a * (1 - (q.mean node t).e) := le_trans (by norm_num at hp ⊢; linarith) hper
  have hr := radius_low (q.mean node t) E ⟨he0, he2⟩ hp1
  obtain ⟨-, -, r0, r1, -, -, hrk, -, -⟩ := perturbation_bounds (q.mean node t) E ⟨he0, he2⟩ hp1
  obtain ⟨q1, q2⟩ := abs_le.mp hrk
  have hk : q.a * (1 - q.e) - 0.0089 ≤ (q.mean node t).rk E := by
    have : 0 ≤ q.a * q.e := mul_nonneg (le_trans (by norm_num) ha) e0
    norm_num at *; linarith
  have hl : len (vec ((q.mean node t).positionKm E)) = length ((q.mean node t).positionKm E) := by
    unfold len dot length vec; congr 1; ring
  rw [hl, position_length _ _ (le_trans (by norm_num at hp ⊢; linarith) hk)]
  unfold kmPerRadius
  norm_num at *; linarith

omit [Libm] in
theorem stands_near {g : Geodedic ℝ} {O : Vec3 ℝ} (h : Stands g O) : len O ≤ 6378.137 + |g.height| := by
  obtain ⟨P, h1, -, rfl⟩ := h
  have hP : len P ≤ 6378.137 := by
    refine abs_le_of_sq_le_sq' ?_ (by norm_num) |>.2
    rw [len_sq]
    unfold OnEllipsoid equatorial polar at h1
    rw [div_add_div _ _ (by norm_num) (by norm_num), div_eq_one_iff_eq (by norm_num)] at h1
    norm_num at *
    nlinarith [sq_nonneg P.z, sq_nonneg P.x, sq_nonneg P.y]
  have hz : len (sub (along P g.height (zenith g.latitude g.longitude)) P) = |g.height| := by
    unfold len
    rw [← Real.sqrt_sq_eq_abs]
    congr 1
    simp only [dot, Spec.sub, along, zenith]
    have e1 := Real.sin_sq_add_cos_sq g.longitude
    have e2 := Real.sin_sq_add_cos_sq g.latitude
    linear_combination (g.height ^ 2 * Real.cos g.latitude ^ 2) * e1 + g.height ^ 2 * e2
  have := (abs_le.mp (len_sub_len (along P g.height (zenith g.latitude g.longitude)) P)).2
  rw [hz] at this
  linarith

/-- **C90**, observers on the ground or in the air, at least 100 km lower than the perigee: the satellite is never closer than one kilometre. -/
theorem C90_look_angles_from_ground_f64 (hL : Libm.Faithful) (l1 l2 : Str) (v : Tle) (h : Printed l1 l2 v) (hpos : v.nddotNeg = false ∨ v.nddotMant = 0)
    (hnd : Normal v.nddotMant) (hb : Normal v.bstarMant) (hday : v.dayE8 ≤ 400 * 10 ^ 8) (hl : LowTle v 0)
    (time : DateTimeUtc) (d : Date) (hd : d.InRange) (hy : time.year = d.year) (hm : time.month = d.month) (hdd : time.day = d.day)
    (hh : time.hour < 24) (hmi : time.minute < 60) (hse : time.second < 60) (g : Geodedic F64) (hg : Station g) 
    (hgh : |g.height.val| + 100 ≤ 6378.137 * ((tleOrbit v).a * (1 - tleEcc v) - 1)) :
    ∃ (s : Satrec F64) (year nE nD : ℕ), twoline2satrec l1 l2 = .ok s ∧
      1957 ≤ year ∧ year ≤ 2056 ∧ (year : ℤ) % 100 = v.year ∧ base.after nE = ⟨year, 1, 1⟩ ∧ base.after nD = d ∧
      let τ : ℝ := ((nD : ℝ) - nE + 1 - (v.dayE8 : ℝ) / 10 ^ 8) * 1440 + time.hour * 60 + time.minute + (time.second : ℝ) / 60
      |τ| ≤ 43199 → |tleDrag v * τ| * tleLow v ^ 5 ≤ 1.99 →
        let m := (tleOrbit v).mean (tleNode v) τ
        ∃ (p : SGP4Result F64) (E : ℝ) (O : Vec3 ℝ), propogate_datetime s time = some (.ok p) ∧
          m.kepler E = 0 ∧ (∀ E', m.kepler E' = 0 → E' = E) ∧ Stands g.exact O ∧
          Points (ecf_to_look_angles g (eci_to_ecf p.position (gstime_datetime time))) g.latitude.val g.longitude.val
            (sub (rotZ (-siderealAngle nD time) (vec (m.positionKm E))) O) (8 / 10 ^ 3) := by
  obtain ⟨s, year, nE, nD, hs, y1, y2, y3, y4, y5, hh'⟩ := C90_look_angles_f64 hL l1 l2 v h hpos hnd hb hday hl time d hd hy hm hdd hh hmi hse g hg
  refine ⟨s, year, nE, nD, hs, y1, y2, y3, y4, y5, ?_⟩
  intro τ h1 h2 m
  obtain ⟨p, E, O, k1, k2, k3, k4, k5⟩ := hh' h1 h2
  refine ⟨p, E, O, k1, k2, k3, k4, k5 ?_⟩
  have hQ : Quiet (tleOrbit v) τ := quiet_low hL h hpos hnd hb { hl with time := h1.trans (by norm_num), drag := h2.trans (by norm_num) }
  have hX := position_high hQ (tleNode v) E
  have hO := stands_near k4
  have hg' : |g.exact.height| + 100 ≤ 6378.137 * ((tleOrbit v).a * (1 - tleEcc v) - 1) := hgh
  have e : len (rotZ (-siderealAngle nD time) (vec (m.positionKm E))) = len (vec (m.positionKm E)) := by
    have := rotZ_len (-siderealAngle nD time) (vec (m.positionKm E)) ⟨0, 0, 0⟩
    have z : rotZ (-siderealAngle nD time) ⟨0, 0, 0⟩ = ⟨0, 0, 0⟩ := by simp [rotZ]
    rw [z] at this
    simpa [Spec.sub] using this
  have := (abs_le.mp (len_sub_len (rotZ (-siderealAngle nD time) (vec (m.positionKm E))) O)).2
  rw [e] at this
  have hX' : 6378.137 * ((tleOrbit v).a * (1 - tleEcc v)) - 60 ≤ len (vec (m.positionKm E)) := hX
  refine le_trans ?_ this
  norm_num at hX' hg' hO ⊢; linarith

/-- The weather satellite of `Props/F64Text.lean` on 2020 February 5 at 6:30:15, seen from latitude 0.75 rad, longitude 0, 500 m above the ellipsoid. -/
theorem noaa_sight (hL : Libm.Faithful) (time : DateTimeUtc) (h1 : time.year = 2020) (h2 : time.month = 2) (h3 : time.day = 5) (h4 : time.hour = 6)
    (h5 : time.minute = 30) (h6 : time.second = 15) :
    ∃ (s : Satrec F64) (p : SGP4Result F64) (L : Vec3 ℝ), twoline2satrec noaaLine1 noaaLine2 = .ok s ∧ propogate_datetime s time = some (.ok p) ∧
      Points (ecf_to_look_angles ⟨0.0, 0.75, 0.5⟩ (eci_to_ecf p.position (gstime_datetime time))) (3 / 4) 0 L (8 / 10 ^ 3) := by
  have w1 := dyadic_within (m := 0) (k := 1) 0 0 0 (B := 100000) (by norm_num) (by norm_num) (by norm_num) (by norm_num) (by norm_num)
  have w2 := dyadic_within (m := 75) (k := 2) (3 / 4) 3 2 (B := 1) (by norm_num) (by norm_num) (by norm_num) (by norm_num) (by norm_num [abs_of_pos])
  have w3 := dyadic_within (m := 5) (k := 1) (1 / 2) 1 1 (B := 10000) (by norm_num) (by norm_num) (by norm_num) (by norm_num) (by norm_num [abs_of_pos])
  obtain ⟨s, year, nE, nD, hs, y1, y2, y3, y4, y5, hh⟩ := C90_look_angles_from_ground_f64 hL _ _ _ noaa_printed (Or.inl rfl) (Or.inl rfl) (Or.inr (by decide))
    (by decide) (noaa_low (τ := 0) (by norm_num)) time ⟨2020, 2, 5⟩ ⟨by decide, by unfold Date.before base; decide, by unfold Date.before; decide⟩ h1 h2 h3
    (by omega) (by omega) (by omega) (⟨0.0, 0.75, 0.5⟩ : Geodedic F64) ⟨w2.1.1, w1.1.1, w3.1⟩ (by
      rw [show (⟨0.0, 0.75, 0.5⟩ : Geodedic F64).height.val = 1 / 2 from w3.2, abs_of_pos (by norm_num)]
      have := noaa_axis
      norm_num at this ⊢; linarith)
  have ey : year = 2020 := by
    have e : (noaaTle.year : ℤ) = 20 := rfl
    rw [e] at y3; omega
  have e1 := (serial_after nE).2.2
  have e2 := (serial_after nD).2.2
  rw [y4, ey] at e1
  rw [y5] at e2
  have e3 : serial ⟨2020, 2, 5⟩ = serial ⟨2020, 1, 1⟩ + 35 := by decide +kernel
  have e4 : (nD : ℝ) = nE + 35 := by exact_mod_cast (by omega : nD = nE + 35)
  have e5 : ((nD : ℝ) - nE + 1 - (noaaTle.dayE8 : ℝ) / 10 ^ 8) * 1440 + time.hour * 60 + time.minute + (time.second : ℝ) / 60 =
      (36 - 29.54791435) * 1440 + 6 * 60 + 30 + 15 / 60 := by
    rw [e4, h4, h5, h6, show (noaaTle.dayE8 : ℝ) = 2954791435 by unfold noaaTle; norm_num]; norm_num
  dsimp only at hh
  rw [e5] at hh
  have hd : tleDrag noaaTle = 59621 / 10 ^ 9 := by
    unfold tleDrag impliedValue sexp noaaTle; norm_num
  obtain ⟨p, E, O, k1, -, -, -, k5⟩ := hh (by norm_num [abs_of_pos]) (by rw [hd, noaa_lowness]; norm_num [abs_of_pos])
  rw [show (⟨0.0, 0.75, 0.5⟩ : Geodedic F64).latitude.val = 3 / 4 from w2.2, show (⟨0.0, 0.75, 0.5⟩ : Geodedic F64).longitude.val = 0 from w1.2] at k5
  exact ⟨s, p, _, hs, k1, k5⟩

end Sat
