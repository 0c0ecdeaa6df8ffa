import Verif.Props.MeanLongitude
import Verif.Props.F64DeepLatitude

/-!
# C108: the longitude of an equatorial satellite, and geostationary satellites

The longitude that is reported for a satellite in a nearly circular, nearly equatorial deep-space orbit is its mean longitude minus the sidereal angle;
for a mean motion of one revolution per sidereal day it stays where it is.
-/

namespace Sat
open F64 hiding sub
open Spec Spec.R3 Spec.SDP Chain

/-- the horizontal part of a place with geodetic coordinates -/
theorem place_dir {G : Geodedic ℝ} {O : Vec3 ℝ} (hG : Stands G O) (hφ : |G.latitude| ≤ Real.pi / 2) (hh : 0 ≤ G.height) :
    ∃ R : ℝ, 0 ≤ R ∧ (⟨O.x, O.y⟩ : ℂ) = (R : ℂ) * dir G.longitude ∧ R ^ 2 = O.x ^ 2 + O.y ^ 2 := by
  rw [stands_iff, geodedic_to_ecf_real] at hG
  have hN := primeVertical_pos G.latitude
  have hc : 0 ≤ Real.cos G.latitude := Real.cos_nonneg_of_mem_Icc ⟨by linarith [(abs_le.mp hφ).1], by linarith [(abs_le.mp hφ).2]⟩
  refine ⟨(primeVertical G.latitude + G.height) * Real.cos G.latitude, by positivity, ?_, ?_⟩
  · rw [hG]
    unfold dir
    apply Complex.ext
    · simp only [Complex.mul_re, Complex.ofReal_re, Complex.ofReal_im]; ring
    · simp only [Complex.mul_im, Complex.ofReal_re, Complex.ofReal_im]; ring
  · rw [hG]
    have := Real.sin_sq_add_cos_sq G.longitude
    dsimp only
    linear_combination -((primeVertical G.latitude + G.height) * Real.cos G.latitude) ^ 2 * this

/-- A set of a nearly circular, nearly equatorial orbit: eccentricity at most 0.01, inclination at most one degree. -/
structure FlatTle (v : Tle) : Prop where
  ecc : v.eccE7 ≤ 100000
  incl : v.inclE4 ≤ 10000

theorem FlatTle.e {v : Tle} (h : FlatTle v) : tleEcc v ≤ 0.01 := by
  unfold tleEcc
  rw [div_le_iff₀ (by positivity)]
  calc (v.eccE7 : ℝ) ≤ 100000 := by exact_mod_cast h.ecc
    _ = _ := by norm_num

theorem FlatTle.flat {v : Tle} (h : FlatTle v) {day τ : ℝ} (hm : MeanNear (tleOrbit v) (carriedMean (tleOrbit v) (tleNode v) day τ)) :
    Flat (carriedMean (tleOrbit v) (tleNode v) day τ) ∧ 2.022 * (carriedMean (tleOrbit v) (tleNode v) day τ).e + 0.0012 ≤ 2.09 * tleEcc v + 0.00121 := by
  obtain ⟨m1, m2, m3⟩ := hm
  have he0 : 0 ≤ tleEcc v := by unfold tleEcc; positivity
  have he := h.e
  have e1 : (tleOrbit v).e = tleEcc v := rfl
  have hi : (tleOrbit v).inc ≤ 0.01746 ∧ 0 ≤ (tleOrbit v).inc := by
    show (v.inclE4 : ℝ) / 10 ^ 4 * (Real.pi / 180) ≤ 0.01746 ∧ 0 ≤ (v.inclE4 : ℝ) / 10 ^ 4 * (Real.pi / 180)
    have h1 : (v.inclE4 : ℝ) ≤ 10000 := by exact_mod_cast h.incl
    have hp := Real.pi_pos
    have hp2 := Real.pi_lt_d4
    refine ⟨?_, by positivity⟩
    calc _ ≤ (1 : ℝ) * (Real.pi / 180) := mul_le_mul_of_nonneg_right (by rw [div_le_iff₀ (by positivity)]; linarith) (by positivity)
      _ ≤ _ := by norm_num at *; linarith
  rw [e1] at m2
  refine ⟨⟨by norm_num at *; linarith, le_trans (by norm_num) (le_max_right _ _), by norm_num at *; linarith, ?_⟩, by norm_num at *; linarith⟩
  obtain ⟨a1, a2⟩ := abs_le.mp m3
  obtain ⟨h1, h2⟩ := hi
  rw [abs_le]; constructor <;> (norm_num at *; linarith)

variable [Libm]

/-- **C108**: from the printed set of a nearly circular, nearly equatorial deep-space orbit and a calendar date within a month, in doubles, the longitude
that `eci_to_geodedic` returns is the mean longitude (node + perigee + mean anomaly, with their secular rates) less the sidereal angle, up to 2.2 times the
eccentricity plus 0.0015 radian and a whole number of turns. -/
theorem C108_longitude_f64 (hL : Libm.Faithful) (l1 l2 : Str) (v : Tle) (h : Printed l1 l2 v) (hpos : v.nddotNeg = false ∨ v.nddotMant = 0)
    (hnd : Normal v.nddotMant) (hb : Normal v.bstarMant) (hl : HighTle v) (hf : FlatTle v)
    (time : DateTimeUtc) (d : Date) (hd : d.InRange) (hy : time.year = d.year) (hm : time.month = d.month) (hdd : time.day = d.day)
    (hh : time.hour < 24) (hmi : time.minute < 60) (hse : time.second < 60) :
    ∃ (s : Satrec F64) (year nE nD : ℕ), twoline2satrec l1 l2 = .ok s ∧
      1957 ≤ year ∧ year ≤ 2056 ∧ (year : ℤ) % 100 = v.year ∧ base.after nE = ⟨year, 1, 1⟩ ∧ base.after nD = d ∧
      let τ : ℝ := ((nD : ℝ) - nE + 1 - (v.dayE8 : ℝ) / 10 ^ 8) * 1440 + time.hour * 60 + time.minute + (time.second : ℝ) / 60
      |τ| ≤ 43199 →
        ∃ (p : SGP4Result F64) (g : Geodedic F64) (τ' : ℝ), propogate_datetime s time = some (.ok p) ∧
          eci_to_geodedic p.position (gstime_datetime time) = some g ∧ |τ' - τ| ≤ 1 / 400000 ∧ |g.longitude.val| ≤ Real.pi ∧
          let q := tleOrbit v
          let L := q.MDF τ' + q.ωDF τ' + q.Ω (tleNode v) τ' + q.n * (3 / 2 * q.C1 * τ' ^ 2)
          ∃ k : ℤ, |g.longitude.val - (L - siderealAngle nD time + k * (2 * Real.pi))| ≤ 2.2 * tleEcc v + 0.0015 := by
  obtain ⟨s, year, nE, nD, hs, y1, y2, y3, y4, y5, hh'⟩ := deep_sized_at_date hL l1 l2 v h hpos hnd hb hl time d hd hy hm hdd hh hmi hse
  refine ⟨s, year, nE, nD, hs, y1, y2, y3, y4, y5, ?_⟩
  intro τ h1
  obtain ⟨τ', p, k1, k2, k, k3, k4, k5, k6, -, k8, k9, -, -, hmn⟩ := hh' h1
  obtain ⟨g1, g3, K, g2⟩ := sidereal_f64 time d hd hy hm hdd hh hmi hse nD y5 (day_small hl.day y1 y2 y4 h1)
  obtain ⟨hF, hF2⟩ := hf.flat hmn
  set m := carriedMean (tleOrbit v) (tleNode v) (2415079.5 + nE - 1 + (v.dayE8 : ℝ) / 10 ^ 8 - 2415020) τ' with hm
  have hbd := far_bounded k9 k6
  have hX : vec (m.positionKm (m.newton k)) = ⟨m.positionKm (m.newton k) 0, m.positionKm (m.newton k) 1, m.positionKm (m.newton k) 2⟩ := rfl
  set X := vec (m.positionKm (m.newton k)) with hX0
  set θ := siderealAngle nD time with hθ
  set O := rotZ (-θ) X with hO
  have hback : rotZ θ O = X := by
    have := Real.sin_sq_add_cos_sq θ
    rw [hO]
    ext
    · simp only [rotZ, Real.sin_neg, Real.cos_neg]; linear_combination X.x * this
    · simp only [rotZ, Real.sin_neg, Real.cos_neg]; linear_combination X.y * this
    · rfl
  obtain ⟨G, s1, s2, s3, s4⟩ := has_place O (D := 6569) (by norm_num) (by
    rw [← len_sq, hO, rotZ_length]
    gcongr)
  have hG : 0 ≤ G.height := by norm_num at s4; linarith
  have hc : p.position.Close X (1.2 / 10 ^ 3) := ⟨⟨k6.1.1, k6.1.2.trans (by norm_num)⟩, ⟨k6.2.1.1, k6.2.1.2.trans (by norm_num)⟩,
    ⟨k6.2.2.1, k6.2.2.2.trans (by norm_num)⟩⟩
  obtain ⟨g, t1, t2⟩ := track_near hL hbd g1 g3 s1 s2 (by linarith) g2 (δ := 1.2 / 10 ^ 3) (by norm_num) (by norm_num) (by norm_num) (by rw [hback]; exact hc)
  refine ⟨p, g, τ', k1, t1, k2, t2.2.2.2.2.1, ?_⟩
  intro q L
  have hLm : m.L = L := rfl
  -- the eccentric longitude
  have he2 : m.eL2 ≤ 0.45 ^ 2 := hF.eL2.trans (by nlinarith [hF.e0, hF.e1])
  have hkep : |m.kepler (m.newton k)| ≤ 1 / 10 ^ 6 := (C65_kepler_converges m he2 k k4 k5).2.1.trans (by norm_num)
  have hdir := hF.direction hkep
  have hrk := hF.rk_pos (m.newton k)
  set ρ := m.rk (m.newton k) * kmPerRadius with hρ
  have hkm : (0 : ℝ) < kmPerRadius := by unfold kmPerRadius; norm_num
  have hρ0 : 0 < ρ := mul_pos hrk hkm
  obtain ⟨R, r1, r2, r3⟩ := place_dir s1 s2 hG
  set D := 2.09 * tleEcc v + 0.00121 with hD
  have hDm := hdir.trans hF2
  have he0 : 0 ≤ tleEcc v := by unfold tleEcc; positivity
  have he := hf.e
  have hD1 : D ≤ 0.0222 := by rw [hD]; norm_num at *; linarith
  have hOc : (⟨O.x, O.y⟩ : ℂ) = dir (-θ) * ((ρ : ℂ) * ⟨m.Uvec (m.newton k) 0, m.Uvec (m.newton k) 1⟩) := by
    rw [hO, hX]
    unfold dir rotZ
    have a0 : m.positionKm (m.newton k) 0 = ρ * m.Uvec (m.newton k) 0 := by rw [hρ]; unfold Mean.positionKm; ring
    have a1 : m.positionKm (m.newton k) 1 = ρ * m.Uvec (m.newton k) 1 := by rw [hρ]; unfold Mean.positionKm; ring
    rw [a0, a1]
    apply Complex.ext
    · simp only [Complex.mul_re, Complex.mul_im, Complex.ofReal_re, Complex.ofReal_im]; ring
    · simp only [Complex.mul_re, Complex.mul_im, Complex.ofReal_re, Complex.ofReal_im]; ring
  have hnear : ‖(R : ℂ) * dir G.longitude - (ρ : ℂ) * dir (L - θ)‖ ≤ D * ρ := by
    rw [← r2, hOc]
    have e : dir (-θ) * ((ρ : ℂ) * ⟨m.Uvec (m.newton k) 0, m.Uvec (m.newton k) 1⟩) - (ρ : ℂ) * dir (L - θ) =
        dir (-θ) * ((ρ : ℂ) * ((⟨m.Uvec (m.newton k) 0, m.Uvec (m.newton k) 1⟩ : ℂ) - dir m.L)) := by
      rw [hLm, sub_eq_add_neg L θ, dir_add]; ring
    rw [e, norm_mul, dir_norm, one_mul, norm_mul, Complex.norm_real, Real.norm_eq_abs, abs_of_pos hρ0, mul_comm]
    exact mul_le_mul_of_nonneg_right hDm hρ0.le
  obtain ⟨w1, j, w2⟩ := angle_of_near r1 hρ0 (by linarith) hnear
  -- the distance from the axis
  have hxy : (3000 : ℝ) ^ 2 ≤ O.x ^ 2 + O.y ^ 2 := by
    rw [← r3]
    have : 3000 ≤ R := by
      refine le_trans ?_ w1
      have hρ1 : 6000 ≤ ρ := by
        have := hF.rk_ge (m.newton k)
        rw [hρ]; unfold kmPerRadius
        norm_num at this ⊢; linarith only [this]
      calc (3000 : ℝ) ≤ (1 - 0.0222) * 6000 := by norm_num
        _ ≤ (1 - D) * ρ := mul_le_mul (by linarith only [hD1]) hρ1 (by norm_num) (by linarith only [hD1])
        _ = _ := by ring
    gcongr
  obtain ⟨i, w3⟩ := t2.2.2.2.2.2.1 3000 (by norm_num) hxy
  refine ⟨j + i, ?_⟩
  have e : g.longitude.val - (L - θ + ((j + i : ℤ) : ℝ) * (2 * Real.pi)) =
      (g.longitude.val - (G.longitude + i * (2 * Real.pi))) + (G.longitude - (L - θ + j * (2 * Real.pi))) := by push_cast; ring
  rw [e]
  refine (abs_add_le _ _).trans ?_
  have hDD : D / (1 - D) ≤ 1.023 * D := by
    have : 0 ≤ D := by positivity
    rw [div_le_iff₀ (by linarith)]
    have x := mul_nonneg this (sub_nonneg.mpr hD1)
    norm_num at x ⊢
    linarith only [x, this]
  have hDv : 1.023 * D ≤ 2.2 * tleEcc v + 0.00125 := by rw [hD]; norm_num; linarith
  norm_num at w3 ⊢
  norm_num at hDv
  linarith

/-! ## Geostationary satellites -/

omit [Libm] in
/-- axes from mean motions -/
theorem axis_of_motion {n : ℝ} (h0 : 0 < n) (h1 : n ≤ 0.004376) : 6.6 ≤ (ke / n) ^ (2 / 3 : ℝ) := by
  have h2 : (16.99 : ℝ) ≤ ke / n := by
    rw [le_div_iff₀ h0]
    unfold ke; norm_num at *; linarith
  have h3 : (6.6 : ℝ) = (6.6 ^ (3 / 2 : ℝ)) ^ (2 / 3 : ℝ) := by rw [← Real.rpow_mul (by norm_num)]; norm_num
  have h4 : (6.6 : ℝ) ^ (3 / 2 : ℝ) ≤ 16.99 := by
    have : ((6.6 : ℝ) ^ (3 / 2 : ℝ)) ^ 2 ≤ 16.99 ^ 2 := by
      rw [← Real.rpow_natCast, ← Real.rpow_mul (by norm_num)]
      norm_num
    exact le_of_sq_le_sq this (by norm_num)
  rw [h3]
  exact Real.rpow_le_rpow (by positivity) (h4.trans h2) (by norm_num)

/-- A set of a geostationary satellite: a mean motion of one revolution per sidereal day, up to 0.0001 revolution per day; eccentricity at most 0.01,
inclination at most one degree, drag term at most 0.001. -/
structure GeoTle (v : Tle) : Prop extends FlatTle v where
  day : v.dayE8 ≤ 400 * 10 ^ 8
  mot_lo : 100263791 ≤ v.noE8
  mot_hi : v.noE8 ≤ 100283791
  argp : v.argpE4 ≤ 3600000
  node : v.nodeE4 ≤ 3600000
  anom : v.moE4 ≤ 3600000
  bstar : |tleDrag v| ≤ 1 / 10 ^ 3

omit [Libm] in
theorem GeoTle.high {v : Tle} (h : GeoTle v) : HighTle v :=
  ⟨h.day, h.ecc.trans (by norm_num), le_trans (by norm_num) h.mot_lo, h.mot_hi.trans (by norm_num), h.incl.trans (by norm_num), h.argp, h.node, h.anom, h.bstar⟩

omit [Libm] in
/-- the printed mean motion is the rotation of the earth up to 4.4e-7 rad/min -/
theorem GeoTle.motion {v : Tle} (h : GeoTle v) : |tleMotion v - 1.00273791 * (2 * Real.pi) / 1440| ≤ 0.0001 * (2 * Real.pi) / 1440 ∧
    0.00437 ≤ tleMotion v ∧ tleMotion v ≤ 0.004376 := by
  have hp := Real.pi_gt_d6
  have hp2 := Real.pi_lt_d6
  have h1 : (1.00263791 : ℝ) ≤ (v.noE8 : ℝ) / 10 ^ 8 := by
    rw [le_div_iff₀ (by positivity)]
    calc (1.00263791 : ℝ) * 10 ^ 8 = 100263791 := by norm_num
      _ ≤ _ := by exact_mod_cast h.mot_lo
  have h2 : (v.noE8 : ℝ) / 10 ^ 8 ≤ 1.00283791 := by
    rw [div_le_iff₀ (by positivity)]
    calc (v.noE8 : ℝ) ≤ 100283791 := by exact_mod_cast h.mot_hi
      _ = _ := by norm_num
  unfold tleMotion
  generalize (v.noE8 : ℝ) / 10 ^ 8 = x at *
  refine ⟨?_, ?_, ?_⟩
  · have e : x * (2 * Real.pi) / 1440 - 1.00273791 * (2 * Real.pi) / 1440 = (x - 1.00273791) * (2 * Real.pi / 1440) := by ring
    have e2 : |x - 1.00273791| ≤ 0.0001 := by
      rw [abs_le]; constructor <;> norm_num at h1 h2 ⊢ <;> linarith only [h1, h2]
    rw [e, abs_mul, abs_of_pos (by positivity : 0 < 2 * Real.pi / 1440)]
    calc _ ≤ 0.0001 * (2 * Real.pi / 1440) := mul_le_mul_of_nonneg_right e2 (by positivity)
      _ = _ := by ring
  · calc (0.00437 : ℝ) ≤ 1.00263791 * (2 * 3.141592) / 1440 := by norm_num
      _ ≤ _ := by gcongr
  · calc x * (2 * Real.pi) / 1440 ≤ 1.00283791 * (2 * 3.141593) / 1440 := by gcongr
      _ ≤ _ := by norm_num

omit [Libm] in
theorem cube_root_one {e : ℝ} (h0 : 0 ≤ e) (h1 : e ≤ 0.01) : 0.9998 ≤ Real.sqrt (1 - e ^ 2) ∧ Real.sqrt (1 - e ^ 2) ≤ 1 := by
  constructor
  · refine Real.le_sqrt_of_sq_le ?_
    nlinarith
  · exact Real.sqrt_le_iff.mpr ⟨zero_le_one, by nlinarith [sq_nonneg e]⟩

omit [Libm] in
/-- the mean motion recovered from the printed one -/
theorem GeoTle.recovered {v : Tle} (h : GeoTle v) : |(tleOrbit v).n - tleMotion v| ≤ 0.00004 * tleMotion v ∧ 0.0043 ≤ (tleOrbit v).n ∧
    (tleOrbit v).n ≤ tleMotion v := by
  obtain ⟨-, n1, n2⟩ := h.motion
  have he0 : 0 ≤ tleEcc v := by unfold tleEcc; positivity
  obtain ⟨b1, b2⟩ := cube_root_one he0 h.e
  have hi0 : |(tleOrbit v).inc| ≤ 0.036 := by
    have hp := Real.pi_pos
    have hp2 := Real.pi_lt_d4
    rw [show (tleOrbit v).inc = (v.inclE4 : ℝ) / 10 ^ 4 * (Real.pi / 180) from rfl, abs_of_nonneg (by positivity)]
    have h1 : (v.inclE4 : ℝ) ≤ 10000 := by exact_mod_cast h.incl
    calc _ ≤ (1 : ℝ) * (Real.pi / 180) := mul_le_mul_of_nonneg_right (by rw [div_le_iff₀ (by positivity)]; linarith) (by positivity)
      _ ≤ _ := by norm_num at *; linarith
  have hc := cos_big (m := ⟨0, 0, 0, 0, 0, (tleOrbit v).inc⟩) hi0
  have hc1 := Real.cos_le_one (tleOrbit v).inc
  simp only at hc
  show |recoveredMotion (tleMotion v) (tleEcc v) (tleOrbit v).inc - _| ≤ _ ∧ _ ≤ recoveredMotion (tleMotion v) (tleEcc v) (tleOrbit v).inc ∧
    recoveredMotion (tleMotion v) (tleEcc v) (tleOrbit v).inc ≤ _
  unfold recoveredMotion
  dsimp only
  have ha1 := axis_of_motion (n := tleMotion v) (by linarith) n2
  set a1 := (ke / tleMotion v) ^ (2 / 3 : ℝ)
  set n := tleMotion v
  set c := (3 * Real.cos (tleOrbit v).inc ^ 2 - 1) / Real.sqrt (1 - tleEcc v ^ 2) ^ 3 with hcd
  have hc0 : 0 ≤ c ∧ c ≤ 2.002 := by
    have hs3 : 0.9994 ≤ Real.sqrt (1 - tleEcc v ^ 2) ^ 3 := by
      calc (0.9994 : ℝ) ≤ 0.9998 ^ 3 := by norm_num
        _ ≤ _ := by gcongr
    constructor
    · refine div_nonneg ?_ (by linarith only [hs3])
      have : (0.999 : ℝ) ^ 2 ≤ Real.cos (tleOrbit v).inc ^ 2 := by gcongr
      norm_num at this; linarith only [this]
    · rw [hcd, div_le_iff₀ (by linarith)]
      have : Real.cos (tleOrbit v).inc ^ 2 ≤ 1 := Real.cos_sq_le_one _
      norm_num at hs3 ⊢
      linarith only [this, hs3]
  have hk : R3.k2 ≤ 0.00054132 ∧ 0 ≤ R3.k2 := by unfold R3.k2 j2; norm_num
  have hδ : ∀ a : ℝ, 6.59 ≤ a → 0 ≤ 3 / 2 * R3.k2 / a ^ 2 * c ∧ 3 / 2 * R3.k2 / a ^ 2 * c ≤ 0.000038 := by
    intro a ha
    have ha2 : 43.42 ≤ a ^ 2 := by
      calc (43.42 : ℝ) ≤ 6.59 ^ 2 := by norm_num
        _ ≤ _ := by gcongr
    refine ⟨mul_nonneg (div_nonneg (by linarith [hk.2]) (by positivity)) hc0.1, ?_⟩
    have : 3 / 2 * R3.k2 / a ^ 2 ≤ 0.0000188 := by
      rw [div_le_iff₀ (by linarith)]; norm_num at *; linarith [hk.1]
    calc _ ≤ (0.0000188 : ℝ) * 2.002 := mul_le_mul this hc0.2 hc0.1 (by norm_num)
      _ ≤ _ := by norm_num
  obtain ⟨d1, d2⟩ := hδ a1 (by linarith)
  set δ1 := 3 / 2 * R3.k2 / a1 ^ 2 * c
  have ha0 : 6.59 ≤ a1 * (1 - δ1 / 3 - δ1 ^ 2 - 134 / 81 * δ1 ^ 3) := by
    have h2 : δ1 ^ 2 ≤ 0.000038 ^ 2 := by gcongr
    have h3 : δ1 ^ 3 ≤ 0.000038 ^ 3 := by gcongr
    have h4 : 0.9999 ≤ 1 - δ1 / 3 - δ1 ^ 2 - 134 / 81 * δ1 ^ 3 := by norm_num at h2 h3 d2 ⊢; linarith only [h2, h3, d2]
    calc (6.59 : ℝ) ≤ 6.6 * 0.9999 := by norm_num
      _ ≤ _ := mul_le_mul ha1 h4 (by norm_num) (by linarith only [ha1])
  obtain ⟨f1, f2⟩ := hδ _ ha0
  set δ0 := 3 / 2 * R3.k2 / (a1 * (1 - δ1 / 3 - δ1 ^ 2 - 134 / 81 * δ1 ^ 3)) ^ 2 * c
  have hlo : n * (1 - 0.000038) ≤ n / (1 + δ0) := by
    rw [le_div_iff₀ (by linarith)]
    have : (1 - 0.000038) * (1 + δ0) ≤ (1 : ℝ) := by
      norm_num at f2 ⊢; linarith only [f1, f2]
    calc n * (1 - 0.000038) * (1 + δ0) = n * ((1 - 0.000038) * (1 + δ0)) := by ring
      _ ≤ n * 1 := mul_le_mul_of_nonneg_left this (by linarith only [n1])
      _ = n := mul_one n
  have hhi : n / (1 + δ0) ≤ n := div_le_self (by linarith) (by linarith)
  refine ⟨?_, by norm_num at *; linarith, hhi⟩
  rw [abs_le]; constructor <;> norm_num at * <;> linarith

omit [Libm] in
theorem GeoTle.orbit {v : Tle} (h : GeoTle v) : 6.6 ≤ (tleOrbit v).a ∧ 0.9998 ≤ (tleOrbit v).β ∧ (tleOrbit v).β ≤ 1 ∧ 0.999 ≤ (tleOrbit v).θ ∧ (tleOrbit v).θ ≤ 1 := by
  obtain ⟨-, n1, n2⟩ := h.motion
  obtain ⟨-, m1, m2⟩ := h.recovered
  have he0 : 0 ≤ tleEcc v := by unfold tleEcc; positivity
  obtain ⟨b1, b2⟩ := cube_root_one he0 h.e
  have hi0 : |(tleOrbit v).inc| ≤ 0.036 := by
    have hp := Real.pi_pos
    have hp2 := Real.pi_lt_d4
    rw [show (tleOrbit v).inc = (v.inclE4 : ℝ) / 10 ^ 4 * (Real.pi / 180) from rfl, abs_of_nonneg (by positivity)]
    have h1 : (v.inclE4 : ℝ) ≤ 10000 := by exact_mod_cast h.incl
    calc _ ≤ (1 : ℝ) * (Real.pi / 180) := mul_le_mul_of_nonneg_right (by rw [div_le_iff₀ (by positivity)]; linarith) (by positivity)
      _ ≤ _ := by norm_num at *; linarith
  exact ⟨axis_of_motion (by linarith) (m2.trans n2), b1, b2, cos_big (m := ⟨0, 0, 0, 0, 0, (tleOrbit v).inc⟩) hi0, Real.cos_le_one _⟩

omit [Libm] in
/-- the mean longitude advances at the printed rate, up to 8e-5 of it -/
theorem GeoTle.rate {v : Tle} (h : GeoTle v) :
    |(tleOrbit v).rateAnomaly + (tleOrbit v).ratePerigee + (tleOrbit v).rateNode - (tleOrbit v).n| ≤ 0.000076 * (tleOrbit v).n := by
  obtain ⟨-, m1, -⟩ := h.recovered
  obtain ⟨ha, b1, b2, t1, t2⟩ := h.orbit
  unfold Orbit.rateAnomaly Orbit.ratePerigee Orbit.rateNode
  set q := tleOrbit v
  have hk : R3.k2 ≤ 0.00054132 ∧ 0 ≤ R3.k2 := by unfold R3.k2 j2; norm_num
  have hk4 : R3.k4 ≤ 0.000001 ∧ 0 ≤ R3.k4 := by unfold R3.k4 j4; norm_num
  have hA2 : 43.56 ≤ q.a ^ 2 := by
    calc (43.56 : ℝ) = 6.6 ^ 2 := by norm_num
      _ ≤ _ := by gcongr
  have hA4 : 1897 ≤ q.a ^ 4 := by
    calc (1897 : ℝ) ≤ 6.6 ^ 4 := by norm_num
      _ ≤ _ := by gcongr
  have bb : ∀ j : ℕ, j ≤ 8 → 0.998 ≤ q.β ^ j := by
    intro j hj
    calc (0.998 : ℝ) ≤ 0.9998 ^ 8 := by norm_num
      _ ≤ 0.9998 ^ j := pow_le_pow_of_le_one (by norm_num) (by norm_num) hj
      _ ≤ _ := by gcongr
  have hθ0 : 0 ≤ q.θ := le_trans (by norm_num) t1
  have tt2 : 0.998 ≤ q.θ ^ 2 ∧ q.θ ^ 2 ≤ 1 := by
    refine ⟨?_, pow_le_one₀ hθ0 t2⟩
    calc (0.998 : ℝ) ≤ 0.999 ^ 2 := by norm_num
      _ ≤ _ := by gcongr
  have tt4 : 0 ≤ q.θ ^ 4 ∧ q.θ ^ 4 ≤ 1 := ⟨pow_nonneg hθ0 4, pow_le_one₀ hθ0 t2⟩
  have tt3 : 0 ≤ q.θ ^ 3 ∧ q.θ ^ 3 ≤ 1 := ⟨pow_nonneg hθ0 3, pow_le_one₀ hθ0 t2⟩
  have big : ∀ {x y X Y : ℝ}, |x| ≤ X → 0 < Y → Y ≤ y → |x / y| ≤ X / Y := by
    intro x y X Y hx hY hy
    rw [abs_div, abs_of_pos (lt_of_lt_of_le hY hy)]
    exact div_le_div₀ ((abs_nonneg _).trans hx) hx hY hy
  have x1 : |3 * R3.k2 * (-1 + 3 * q.θ ^ 2) / (2 * q.a ^ 2 * q.β ^ 3)| ≤ 3 * 0.00054132 * 2 / (2 * 43.56 * 0.998) := by
    refine big ?_ (by norm_num) ?_
    · rw [abs_of_nonneg (mul_nonneg (by linarith [hk.2]) (by linarith [tt2.1]))]
      have := hk.1
      have := hk.2
      gcongr <;> linarith [tt2.2]
    · have := bb 3 (by norm_num); gcongr
  have x2 : |3 * R3.k2 ^ 2 * (13 - 78 * q.θ ^ 2 + 137 * q.θ ^ 4) / (16 * q.a ^ 4 * q.β ^ 7)| ≤ 3 * 0.00054132 ^ 2 * 228 / (16 * 1897 * 0.998) := by
    refine big ?_ (by norm_num) ?_
    · rw [abs_mul, abs_of_nonneg (by positivity : 0 ≤ 3 * R3.k2 ^ 2)]
      have h1 := hk.1
      have h2 := hk.2
      have : |13 - 78 * q.θ ^ 2 + 137 * q.θ ^ 4| ≤ 228 := by rw [abs_le]; constructor <;> linarith [tt2.1, tt2.2, tt4.1, tt4.2]
      gcongr
    · have := bb 7 (by norm_num); gcongr
  have y1 : |3 * R3.k2 * ((5 * q.θ ^ 2 - 1) / 2 - q.θ) / (q.a ^ 2 * q.β ^ 4)| ≤ 3 * 0.00054132 * 1.001 / (43.56 * 0.998) := by
    refine big ?_ (by norm_num) ?_
    · rw [abs_mul, abs_of_nonneg (by linarith [hk.2] : 0 ≤ 3 * R3.k2)]
      have h1 := hk.1
      have h2 := hk.2
      have : |(5 * q.θ ^ 2 - 1) / 2 - q.θ| ≤ 1.001 := by rw [abs_le]; constructor <;> linarith [tt2.1, tt2.2]
      gcongr
    · have := bb 4 (by norm_num); gcongr
  have y2 : |3 * R3.k2 ^ 2 * (7 - 114 * q.θ ^ 2 + 395 * q.θ ^ 4) / (16 * q.a ^ 4 * q.β ^ 8)| ≤ 3 * 0.00054132 ^ 2 * 516 / (16 * 1897 * 0.998) := by
    refine big ?_ (by norm_num) ?_
    · rw [abs_mul, abs_of_nonneg (by positivity : 0 ≤ 3 * R3.k2 ^ 2)]
      have h1 := hk.1
      have h2 := hk.2
      have : |7 - 114 * q.θ ^ 2 + 395 * q.θ ^ 4| ≤ 516 := by rw [abs_le]; constructor <;> linarith [tt2.1, tt2.2, tt4.1, tt4.2]
      gcongr
    · have := bb 8 (by norm_num); gcongr
  have y3 : |5 * R3.k4 * (3 - 36 * q.θ ^ 2 + 49 * q.θ ^ 4) / (4 * q.a ^ 4 * q.β ^ 8)| ≤ 5 * 0.000001 * 88 / (4 * 1897 * 0.998) := by
    refine big ?_ (by norm_num) ?_
    · rw [abs_mul, abs_of_nonneg (by linarith [hk4.2] : 0 ≤ 5 * R3.k4)]
      have h1 := hk4.1
      have h2 := hk4.2
      have : |3 - 36 * q.θ ^ 2 + 49 * q.θ ^ 4| ≤ 88 := by rw [abs_le]; constructor <;> linarith [tt2.1, tt2.2, tt4.1, tt4.2]
      gcongr
    · have := bb 8 (by norm_num); gcongr
  have z2 : |3 * R3.k2 ^ 2 * (4 * q.θ - 19 * q.θ ^ 3) / (2 * q.a ^ 4 * q.β ^ 8)| ≤ 3 * 0.00054132 ^ 2 * 23 / (2 * 1897 * 0.998) := by
    refine big ?_ (by norm_num) ?_
    · rw [abs_mul, abs_of_nonneg (by positivity : 0 ≤ 3 * R3.k2 ^ 2)]
      have h1 := hk.1
      have h2 := hk.2
      have : |4 * q.θ - 19 * q.θ ^ 3| ≤ 23 := by rw [abs_le]; constructor <;> linarith [tt3.1, tt3.2]
      gcongr
    · have := bb 8 (by norm_num); gcongr
  have z3 : |5 * R3.k4 * q.θ * (3 - 7 * q.θ ^ 2) / (2 * q.a ^ 4 * q.β ^ 8)| ≤ 5 * 0.000001 * 1 * 10 / (2 * 1897 * 0.998) := by
    refine big ?_ (by norm_num) ?_
    · rw [abs_mul, abs_of_nonneg (mul_nonneg (by linarith [hk4.2]) (by linarith) : 0 ≤ 5 * R3.k4 * q.θ)]
      have h1 := hk4.1
      have h2 := hk4.2
      have : |3 - 7 * q.θ ^ 2| ≤ 10 := by rw [abs_le]; constructor <;> linarith [tt2.1, tt2.2]
      gcongr
    · have := bb 8 (by norm_num); gcongr
  generalize 3 * R3.k2 * (-1 + 3 * q.θ ^ 2) / (2 * q.a ^ 2 * q.β ^ 3) = X1 at *
  generalize 3 * R3.k2 ^ 2 * (13 - 78 * q.θ ^ 2 + 137 * q.θ ^ 4) / (16 * q.a ^ 4 * q.β ^ 7) = X2 at *
  have yz : -3 * R3.k2 * (1 - 5 * q.θ ^ 2) / (2 * q.a ^ 2 * q.β ^ 4) + -3 * R3.k2 * q.θ / (q.a ^ 2 * q.β ^ 4) =
      3 * R3.k2 * ((5 * q.θ ^ 2 - 1) / 2 - q.θ) / (q.a ^ 2 * q.β ^ 4) := by
    have := bb 1 (by norm_num)
    have hβ : q.β ≠ 0 := by intro h0; rw [h0] at this; norm_num at this
    have ha0 : q.a ≠ 0 := by intro h0; rw [h0] at ha; norm_num at ha
    field_simp; ring
  rw [← yz] at y1
  generalize -3 * R3.k2 * (1 - 5 * q.θ ^ 2) / (2 * q.a ^ 2 * q.β ^ 4) = Y1 at *
  generalize 3 * R3.k2 ^ 2 * (7 - 114 * q.θ ^ 2 + 395 * q.θ ^ 4) / (16 * q.a ^ 4 * q.β ^ 8) = Y2 at *
  generalize 5 * R3.k4 * (3 - 36 * q.θ ^ 2 + 49 * q.θ ^ 4) / (4 * q.a ^ 4 * q.β ^ 8) = Y3 at *
  generalize -3 * R3.k2 * q.θ / (q.a ^ 2 * q.β ^ 4) = Z1 at *
  generalize 3 * R3.k2 ^ 2 * (4 * q.θ - 19 * q.θ ^ 3) / (2 * q.a ^ 4 * q.β ^ 8) = Z2 at *
  generalize 5 * R3.k4 * q.θ * (3 - 7 * q.θ ^ 2) / (2 * q.a ^ 4 * q.β ^ 8) = Z3 at *
  have e : q.n * (1 + X1 + X2) + q.n * (Y1 + Y2 + Y3) + q.n * (Z1 + Z2 + Z3) - q.n = (X1 + X2 + (Y1 + Z1) + Y2 + Y3 + Z2 + Z3) * q.n := by ring
  rw [e, abs_mul, abs_of_pos (by linarith : 0 < q.n)]
  refine mul_le_mul_of_nonneg_right ?_ (by linarith)
  rw [abs_le] at *
  clear bb yz
  constructor <;> norm_num at * <;> linarith

set_option maxHeartbeats 1000000 in
omit [Libm] in
/-- drag is negligible -/
theorem GeoTle.drag {v : Tle} (h : GeoTle v) : |(tleOrbit v).C1| ≤ 1 / 10 ^ 13 ∧ |(tleOrbit v).dΩ| ≤ 1 / 10 ^ 17 := by
  obtain ⟨-, n1, n2⟩ := h.motion
  obtain ⟨-, m1, m2⟩ := h.recovered
  obtain ⟨ha, b1, b2, t1, t2⟩ := h.orbit
  have he0 : 0 ≤ (tleOrbit v).e := by show 0 ≤ tleEcc v; unfold tleEcc; positivity
  have he : (tleOrbit v).e ≤ 0.01 := h.e
  have hb : |(tleOrbit v).bstar| ≤ 1 / 10 ^ 3 := h.bstar
  have hn : (tleOrbit v).n ≤ 0.0044 := by norm_num at *; linarith
  have hn0 : 0 ≤ (tleOrbit v).n := by norm_num at *; linarith
  unfold Orbit.dΩ Orbit.C1
  set q := tleOrbit v
  have hp : 156 ≤ q.perigeeKm := by
    unfold Orbit.perigeeKm kmPerRadius
    have : 6.5 ≤ q.a * (1 - q.e) := by
      calc (6.5 : ℝ) ≤ 6.6 * (1 - 0.01) := by norm_num
        _ ≤ _ := by gcongr
    norm_num at *; linarith
  have hs : q.s = 1 + 78 / 6378.137 := by
    unfold Orbit.s Orbit.sKm kmPerRadius
    rw [if_neg (by linarith), if_neg (by linarith)]
  have hq4 : q.q4 ≤ 2 / 10 ^ 9 ∧ 0 ≤ q.q4 := by
    unfold Orbit.q4
    rw [hs]; unfold kmPerRadius; norm_num
  have hd : 5.5 ≤ q.a - q.s := by rw [hs]; norm_num at *; linarith
  have hξ : 0 ≤ q.ξ ∧ q.ξ ≤ 0.19 := by
    unfold Orbit.ξ
    refine ⟨by positivity, ?_⟩
    rw [div_le_iff₀ (by linarith)]; norm_num at *; linarith
  have haξ : 0 ≤ q.a * q.ξ ∧ q.a * q.ξ ≤ 1.2 := by
    refine ⟨mul_nonneg (by linarith) hξ.1, ?_⟩
    unfold Orbit.ξ
    rw [mul_one_div, div_le_iff₀ (by linarith), hs]
    norm_num at *; linarith
  have hη : 0 ≤ q.η ∧ q.η ≤ 0.012 := by
    have e : q.η = q.a * q.ξ * q.e := by unfold Orbit.η; ring
    rw [e]
    refine ⟨mul_nonneg haξ.1 he0, ?_⟩
    calc _ ≤ (1.2 : ℝ) * 0.01 := mul_le_mul haξ.2 he he0 (by norm_num)
      _ = _ := by norm_num
  have hη2 : q.η ^ 2 ≤ 0.0002 := by
    have x1 := hη.1; have x2 := hη.2
    calc q.η ^ 2 ≤ 0.012 ^ 2 := by gcongr
      _ ≤ _ := by norm_num
  have hψ : 0.9998 ≤ q.ψ ∧ q.ψ ≤ 1 := by
    unfold Orbit.ψ
    rw [abs_of_nonneg (by linarith)]
    constructor <;> linarith [sq_nonneg q.η]
  have hψ7 : 0.999 ≤ q.ψ ^ (7 / 2 : ℝ) := by
    calc (0.999 : ℝ) ≤ 0.9998 ^ 4 := by norm_num
      _ ≤ q.ψ ^ 4 := by have := hψ.1; gcongr
      _ = q.ψ ^ (4 : ℝ) := by rw [← Real.rpow_natCast]; norm_num
      _ ≤ _ := Real.rpow_le_rpow_of_exponent_ge (by linarith [hψ.1]) hψ.2 (by norm_num)
  have hk : R3.k2 ≤ 0.00054132 ∧ 0 ≤ R3.k2 := by unfold R3.k2 j2; norm_num
  have hP : 0 ≤ 1 + 3 / 2 * q.η ^ 2 + 4 * q.e * q.η + q.e * q.η ^ 3 ∧ 1 + 3 / 2 * q.η ^ 2 + 4 * q.e * q.η + q.e * q.η ^ 3 ≤ 1.01 := by
    have h3 : 0 ≤ q.η ^ 3 ∧ q.η ^ 3 ≤ 0.012 ^ 3 := by
      have := hη.1; have := hη.2
      exact ⟨by positivity, by gcongr⟩
    have h4 : 0 ≤ q.e * q.η := mul_nonneg he0 hη.1
    have h5 : 0 ≤ q.e * q.η ^ 3 := mul_nonneg he0 h3.1
    have h6 := sq_nonneg q.η
    have h7 := mul_le_mul he hη.2 hη.1 (by norm_num : (0 : ℝ) ≤ 0.01)
    have h8 := mul_le_mul he h3.2 h3.1 (by norm_num : (0 : ℝ) ≤ 0.01)
    constructor
    · linarith only [h4, h5, h6]
    · norm_num at h7 h8 hη2 ⊢
      linarith only [h7, h8, hη2]
  have hR : |3 / 2 * (R3.k2 * q.ξ / q.ψ) * (-1 / 2 + 3 / 2 * q.θ ^ 2) * (8 + 24 * q.η ^ 2 + 3 * q.η ^ 4)| ≤ 0.01 := by
    have r1 : 0 ≤ R3.k2 * q.ξ / q.ψ ∧ R3.k2 * q.ξ / q.ψ ≤ 0.0002 := by
      refine ⟨div_nonneg (mul_nonneg hk.2 hξ.1) (by linarith [hψ.1]), ?_⟩
      rw [div_le_iff₀ (by linarith [hψ.1])]
      calc _ ≤ (0.00054132 : ℝ) * 0.19 := mul_le_mul hk.1 hξ.2 hξ.1 (by norm_num)
        _ ≤ 0.0002 * 0.9998 := by norm_num
        _ ≤ _ := by have := hψ.1; gcongr
    have r2 : 0 ≤ -1 / 2 + 3 / 2 * q.θ ^ 2 ∧ -1 / 2 + 3 / 2 * q.θ ^ 2 ≤ 1 := by
      have x1 : q.θ ^ 2 ≤ 1 := pow_le_one₀ (le_trans (by norm_num) t1) t2
      have x2 : 0.5 ≤ q.θ ^ 2 := by
        calc (0.5 : ℝ) ≤ 0.999 ^ 2 := by norm_num
          _ ≤ _ := by gcongr
      norm_num at x2
      constructor <;> linarith only [x1, x2]
    have r3 : 0 ≤ 8 + 24 * q.η ^ 2 + 3 * q.η ^ 4 ∧ 8 + 24 * q.η ^ 2 + 3 * q.η ^ 4 ≤ 9 := by
      have x0 := sq_nonneg q.η
      have x1 : 0 ≤ q.η ^ 4 := pow_nonneg hη.1 4
      have x2 : q.η ^ 4 ≤ 0.0002 ^ 2 := by
        rw [show q.η ^ 4 = (q.η ^ 2) ^ 2 by ring]; gcongr
      constructor
      · linarith only [x0, x1]
      · norm_num at x2 hη2; linarith only [x2, hη2]
    rw [abs_of_nonneg (mul_nonneg (mul_nonneg (by linarith [r1.1]) r2.1) r3.1)]
    calc _ ≤ 3 / 2 * 0.0002 * 1 * (9 : ℝ) := mul_le_mul (mul_le_mul (by linarith [r1.2]) r2.2 r2.1 (by norm_num)) r3.2 r3.1 (by norm_num)
      _ ≤ _ := by norm_num
  have hC2 : |q.C2| ≤ 1 / 10 ^ 10 := by
    unfold Orbit.C2
    set P := 1 + 3 / 2 * q.η ^ 2 + 4 * q.e * q.η + q.e * q.η ^ 3
    set W := 3 / 2 * (R3.k2 * q.ξ / q.ψ) * (-1 / 2 + 3 / 2 * q.θ ^ 2) * (8 + 24 * q.η ^ 2 + 3 * q.η ^ 4)
    have e : q.q4 * q.ξ ^ 4 * q.n / q.ψ ^ (7 / 2 : ℝ) * (q.a * P + W) = q.q4 * q.ξ ^ 3 * q.n / q.ψ ^ (7 / 2 : ℝ) * (q.a * q.ξ * P + q.ξ * W) := by ring
    rw [e, abs_mul]
    have f0 : 0 ≤ q.q4 * q.ξ ^ 3 * q.n := mul_nonneg (mul_nonneg hq4.2 (pow_nonneg hξ.1 3)) hn0
    have f1 : |q.q4 * q.ξ ^ 3 * q.n / q.ψ ^ (7 / 2 : ℝ)| ≤ 1 / 10 ^ 11 := by
      rw [abs_of_nonneg (div_nonneg f0 (by linarith)), div_le_iff₀ (by linarith)]
      have : q.q4 * q.ξ ^ 3 * q.n ≤ 2 / 10 ^ 9 * 0.19 ^ 3 * 0.0044 := by
        have x1 := hq4.1; have x2 := hξ.1; have x3 := hξ.2; have x4 := hq4.2
        gcongr
      norm_num at *; linarith
    have f2 : |q.a * q.ξ * P + q.ξ * W| ≤ 2 := by
      refine (abs_add_le _ _).trans ?_
      rw [abs_mul (q.a * q.ξ), abs_mul q.ξ, abs_of_nonneg haξ.1, abs_of_nonneg hP.1, abs_of_nonneg hξ.1]
      have g1 : q.a * q.ξ * P ≤ 1.2 * 1.01 := mul_le_mul haξ.2 hP.2 hP.1 (by norm_num)
      have g2 : q.ξ * |W| ≤ 0.19 * 0.01 := mul_le_mul hξ.2 hR (abs_nonneg _) (by norm_num)
      norm_num at *; linarith
    calc _ ≤ 1 / 10 ^ 11 * (2 : ℝ) := mul_le_mul f1 f2 (abs_nonneg _) (by norm_num)
      _ ≤ _ := by norm_num
  have hC1 : |q.bstar * q.C2| ≤ 1 / 10 ^ 13 := by
    rw [abs_mul]
    calc _ ≤ 1 / 10 ^ 3 * (1 / 10 ^ 10 : ℝ) := mul_le_mul hb hC2 (abs_nonneg _) (by norm_num)
      _ ≤ _ := by norm_num
  refine ⟨hC1, ?_⟩
  rw [abs_mul]
  have hA2 : 43.56 ≤ q.a ^ 2 := by
    calc (43.56 : ℝ) = 6.6 ^ 2 := by norm_num
      _ ≤ _ := by gcongr
  have hB2 : 0.99 ≤ q.β ^ 2 := by
    calc (0.99 : ℝ) ≤ 0.9998 ^ 2 := by norm_num
      _ ≤ _ := by gcongr
  have f : |-21 / 2 * q.n * R3.k2 * q.θ / (q.a ^ 2 * q.β ^ 2)| ≤ 1 / 10 ^ 4 := by
    have hden : 43 ≤ q.a ^ 2 * q.β ^ 2 := by
      calc (43 : ℝ) ≤ 43.56 * 0.99 := by norm_num
        _ ≤ _ := by gcongr
    rw [abs_div, abs_of_pos (by linarith : 0 < q.a ^ 2 * q.β ^ 2), div_le_iff₀ (by linarith),
      show -21 / 2 * q.n * R3.k2 * q.θ = -(21 / 2 * q.n * R3.k2 * q.θ) by ring, abs_neg,
      abs_of_nonneg (mul_nonneg (mul_nonneg (by linarith) hk.2) (by linarith))]
    have x1 := hk.1; have x2 := hk.2
    calc _ ≤ 21 / 2 * 0.0044 * 0.00054132 * (1 : ℝ) := by gcongr
      _ ≤ 1 / 10 ^ 4 * 43 := by norm_num
      _ ≤ _ := by gcongr
  calc _ ≤ 1 / 10 ^ 4 * (1 / 10 ^ 13 : ℝ) := mul_le_mul f hC1 (abs_nonneg _) (by norm_num)
    _ ≤ _ := by norm_num

omit [Libm] in
/-- the sidereal angle advances by 1.0027379 turns a day -/
theorem sidereal_advance {n n' : ℕ} {time time' : DateTimeUtc} (h1 : time.hour < 24) (h2 : time.minute < 60) (h3 : time.second < 60)
    (h1' : time'.hour < 24) (h2' : time'.minute < 60) (h3' : time'.second < 60) (hn : n ≤ 72000) (hn' : n' ≤ 72000) (hd : (n : ℝ) - n' ≤ 100) (hd' : (n' : ℝ) - n ≤ 100) :
    |siderealAngle n' time' - siderealAngle n time - 1.00273791 * (2 * Real.pi) / 1440 *
      (((n' : ℝ) - n) * 1440 + (time'.hour * 60 + time'.minute + (time'.second : ℝ) / 60) - (time.hour * 60 + time.minute + (time.second : ℝ) / 60))| ≤ 1 / 10 ^ 5 := by
  have hp := Real.pi_gt_three
  have hp2 := Real.pi_lt_d2
  have day : ∀ t : DateTimeUtc, t.hour < 24 → t.minute < 60 → t.second < 60 →
      0 ≤ (t.hour : ℝ) * 60 + t.minute + (t.second : ℝ) / 60 ∧ (t.hour : ℝ) * 60 + t.minute + (t.second : ℝ) / 60 ≤ 1440 := by
    intro t a b c
    have a' : (t.hour : ℝ) + 1 ≤ 24 := by exact_mod_cast a
    have b' : (t.minute : ℝ) + 1 ≤ 60 := by exact_mod_cast b
    have c' : (t.second : ℝ) + 1 ≤ 60 := by exact_mod_cast c
    exact ⟨by positivity, by linarith⟩
  obtain ⟨d1, d2⟩ := day time h1 h2 h3
  obtain ⟨e1, e2⟩ := day time' h1' h2' h3'
  have f : ∀ (k : ℕ) (t : DateTimeUtc), ((t.hour : ℝ) * 3600 + t.minute * 60 + t.second) / 86400 = ((t.hour : ℝ) * 60 + t.minute + (t.second : ℝ) / 60) / 1440 := by
    intro k t; ring
  unfold siderealAngle
  rw [f n time, f n' time']
  set x := (time.hour : ℝ) * 60 + time.minute + (time.second : ℝ) / 60
  set y := (time'.hour : ℝ) * 60 + time'.minute + (time'.second : ℝ) / 60
  unfold gmstSeconds
  dsimp only
  have hN : (n : ℝ) ≤ 72000 := by exact_mod_cast hn
  have hN' : (n' : ℝ) ≤ 72000 := by exact_mod_cast hn'
  have hN0 : (0 : ℝ) ≤ n := Nat.cast_nonneg _
  have hN0' : (0 : ℝ) ≤ n' := Nat.cast_nonneg _
  set T := (2415079.5 + (n : ℝ) + x / 1440 - 2451545) / 36525 with hT
  set T' := (2415079.5 + (n' : ℝ) + y / 1440 - 2451545) / 36525 with hT'
  have t1 : |T| ≤ 1 := by rw [hT, abs_le]; constructor <;> norm_num <;> linarith
  have t2 : |T'| ≤ 1 := by rw [hT', abs_le]; constructor <;> norm_num <;> linarith
  have hdT : |T' - T| ≤ 0.003 := by rw [hT, hT', abs_le]; constructor <;> norm_num <;> linarith
  have key : ((n' : ℝ) - n) * 1440 + y - x = (T' - T) * 36525 * 1440 := by rw [hT, hT']; ring
  rw [key]
  have e : (67310.54841 + (876600 * 3600 + 8640184.812866) * T' + 0.093104 * T' ^ 2 - 6.2e-6 * T' ^ 3) / 86400 * (2 * Real.pi) -
      (67310.54841 + (876600 * 3600 + 8640184.812866) * T + 0.093104 * T ^ 2 - 6.2e-6 * T ^ 3) / 86400 * (2 * Real.pi) -
      1.00273791 * (2 * Real.pi) / 1440 * ((T' - T) * 36525 * 1440) =
      (T' - T) * (2 * Real.pi) * (((876600 * 3600 + 8640184.812866) / 86400 - 1.00273791 * 36525) + (0.093104 * (T' + T) - 6.2e-6 * (T' ^ 2 + T' * T + T ^ 2)) / 86400) := by ring
  rw [e, abs_mul, abs_mul, abs_of_pos (by positivity : 0 < 2 * Real.pi)]
  have hq : |((876600 * 3600 + 8640184.812866) / 86400 - 1.00273791 * 36525) + (0.093104 * (T' + T) - 6.2e-6 * (T' ^ 2 + T' * T + T ^ 2)) / 86400| ≤ 0.0003 := by
    obtain ⟨a1, a2⟩ := abs_le.mp t1
    obtain ⟨b1, b2⟩ := abs_le.mp t2
    have c1 : |T' ^ 2 + T' * T + T ^ 2| ≤ 3 := by
      have x1 : |T' ^ 2| ≤ 1 := by rw [abs_pow]; exact pow_le_one₀ (abs_nonneg _) t2
      have x2 : |T ^ 2| ≤ 1 := by rw [abs_pow]; exact pow_le_one₀ (abs_nonneg _) t1
      have x3 : |T' * T| ≤ 1 := by rw [abs_mul]; exact mul_le_one₀ t2 (abs_nonneg _) t1
      have x4 := abs_add_le (T' ^ 2 + T' * T) (T ^ 2)
      have x5 := abs_add_le (T' ^ 2) (T' * T)
      linarith only [x1, x2, x3, x4, x5]
    obtain ⟨c2, c3⟩ := abs_le.mp c1
    rw [abs_le]; constructor <;> norm_num <;> linarith only [a1, a2, b1, b2, c2, c3]
  calc |T' - T| * (2 * Real.pi) * _ ≤ 0.003 * (2 * 3.15) * (0.0003 : ℝ) := by gcongr
    _ ≤ _ := by norm_num

set_option maxHeartbeats 1000000 in
/-- **C108**, geostationary satellites: between any two dates within a month of the epoch, the longitude that is reported for a satellite with a
mean motion of one revolution per sidereal day, a small eccentricity and a small inclination changes, in doubles and from the printed set, by at most
0.0014 radian (0.08 degrees) per day plus 4.4 times the eccentricity plus 0.0032 radian (0.2 degrees), a whole turn apart. -/
theorem C108_geostationary_f64 (hL : Libm.Faithful) (l1 l2 : Str) (v : Tle) (h : Printed l1 l2 v) (hpos : v.nddotNeg = false ∨ v.nddotMant = 0)
    (hnd : Normal v.nddotMant) (hb : Normal v.bstarMant) (hg : GeoTle v)
    (time : DateTimeUtc) (d : Date) (hd : d.InRange) (hy : time.year = d.year) (hm : time.month = d.month) (hdd : time.day = d.day)
    (hh : time.hour < 24) (hmi : time.minute < 60) (hse : time.second < 60)
    (time' : DateTimeUtc) (d' : Date) (hd' : d'.InRange) (hy' : time'.year = d'.year) (hm' : time'.month = d'.month) (hdd' : time'.day = d'.day)
    (hh' : time'.hour < 24) (hmi' : time'.minute < 60) (hse' : time'.second < 60) :
    ∃ (s : Satrec F64) (year nE nD nD' : ℕ), twoline2satrec l1 l2 = .ok s ∧
      1957 ≤ year ∧ year ≤ 2056 ∧ (year : ℤ) % 100 = v.year ∧ base.after nE = ⟨year, 1, 1⟩ ∧ base.after nD = d ∧ base.after nD' = d' ∧
      let τ : ℝ := ((nD : ℝ) - nE + 1 - (v.dayE8 : ℝ) / 10 ^ 8) * 1440 + time.hour * 60 + time.minute + (time.second : ℝ) / 60
      let τ' : ℝ := ((nD' : ℝ) - nE + 1 - (v.dayE8 : ℝ) / 10 ^ 8) * 1440 + time'.hour * 60 + time'.minute + (time'.second : ℝ) / 60
      |τ| ≤ 43199 → |τ'| ≤ 43199 →
        ∃ (p p' : SGP4Result F64) (g g' : Geodedic F64) (k : ℤ),
          propogate_datetime s time = some (.ok p) ∧ eci_to_geodedic p.position (gstime_datetime time) = some g ∧
          propogate_datetime s time' = some (.ok p') ∧ eci_to_geodedic p'.position (gstime_datetime time') = some g' ∧
          |g'.longitude.val - g.longitude.val - k * (2 * Real.pi)| ≤ 0.0014 * (|τ' - τ| / 1440) + 4.4 * tleEcc v + 0.0032 := by
  obtain ⟨s, year, nE, nD, hs, y1, y2, y3, y4, y5, H⟩ := C108_longitude_f64 hL l1 l2 v h hpos hnd hb hg.high hg.toFlatTle time d hd hy hm hdd hh hmi hse
  obtain ⟨s', year', nE', nD', hs', z1, z2, z3, z4, z5, H'⟩ :=
    C108_longitude_f64 hL l1 l2 v h hpos hnd hb hg.high hg.toFlatTle time' d' hd' hy' hm' hdd' hh' hmi' hse'
  obtain rfl : s' = s := by rw [hs] at hs'; cases hs'; rfl
  obtain rfl : year' = year := by omega
  obtain rfl : nE' = nE := by
    have e1 := (start_of_year y1 y2 y4).1
    have e2 := (start_of_year z1 z2 z4).1
    omega
  refine ⟨s', year', nE', nD, nD', hs, y1, y2, y3, y4, y5, z5, ?_⟩
  intro τ τ' h1 h1'
  obtain ⟨p, g, σ, a1, a2, a3, -, k, a4⟩ := H h1
  obtain ⟨p', g', σ', b1, b2, b3, -, k', b4⟩ := H' h1'
  have hn := day_small hg.day y1 y2 y4 h1
  have hn' := day_small hg.day y1 y2 y4 h1'
  refine ⟨p, p', g, g', k' - k, a1, a2, b1, b2, ?_⟩
  obtain ⟨n0, n1, n2⟩ := hg.motion
  obtain ⟨m0, m1, m2⟩ := hg.recovered
  have hr := hg.rate
  obtain ⟨c1, c2⟩ := hg.drag
  change |σ - τ| ≤ _ at a3
  change |σ' - τ'| ≤ _ at b3
  have dd : ∀ t : DateTimeUtc, t.hour < 24 → t.minute < 60 → t.second < 60 →
      0 ≤ (t.hour : ℝ) * 60 + t.minute + (t.second : ℝ) / 60 ∧ (t.hour : ℝ) * 60 + t.minute + (t.second : ℝ) / 60 ≤ 1440 := by
    intro t a b c
    have a' : (t.hour : ℝ) + 1 ≤ 24 := by exact_mod_cast a
    have b' : (t.minute : ℝ) + 1 ≤ 60 := by exact_mod_cast b
    have c' : (t.second : ℝ) + 1 ≤ 60 := by exact_mod_cast c
    exact ⟨by positivity, by linarith⟩
  obtain ⟨d1, d2⟩ := dd time hh hmi hse
  obtain ⟨e1, e2⟩ := dd time' hh' hmi' hse'
  have hττ : τ' - τ = ((nD' : ℝ) - nD) * 1440 + (time'.hour * 60 + time'.minute + (time'.second : ℝ) / 60) - (time.hour * 60 + time.minute + (time.second : ℝ) / 60) := by
    simp only [τ, τ']; ring
  have hab : |τ' - τ| ≤ 86398 := (abs_sub _ _).trans (by linarith)
  have hsid := sidereal_advance (n := nD) (n' := nD') hh hmi hse hh' hmi' hse' hn hn' (by
    rw [hττ] at hab; have := (abs_le.mp hab).1; linarith) (by rw [hττ] at hab; have := (abs_le.mp hab).2; linarith)
  rw [← hττ] at hsid
  set q := tleOrbit v
  set Θ := siderealAngle nD time
  set Θ' := siderealAngle nD' time'
  set S := q.rateAnomaly + q.ratePerigee + q.rateNode with hS
  -- the mean longitudes
  have eL : (q.MDF σ' + q.ωDF σ' + q.Ω (tleNode v) σ' + q.n * (3 / 2 * q.C1 * σ' ^ 2)) - (q.MDF σ + q.ωDF σ + q.Ω (tleNode v) σ + q.n * (3 / 2 * q.C1 * σ ^ 2)) =
      S * (σ' - σ) + (q.dΩ + 3 / 2 * q.n * q.C1) * (σ' ^ 2 - σ ^ 2) := by
    unfold Orbit.MDF Orbit.ωDF Orbit.Ω; rw [hS]; ring
  set Λ := q.MDF σ + q.ωDF σ + q.Ω (tleNode v) σ + q.n * (3 / 2 * q.C1 * σ ^ 2)
  set Λ' := q.MDF σ' + q.ωDF σ' + q.Ω (tleNode v) σ' + q.n * (3 / 2 * q.C1 * σ' ^ 2)
  have hpi := Real.pi_gt_three
  have hpi2 := Real.pi_lt_d2
  have hσ : |σ| ≤ 43200 := by
    have := abs_sub_abs_le_abs_sub σ τ
    have : (1 : ℝ) / 400000 ≤ 1 := by norm_num
    linarith
  have hσ' : |σ'| ≤ 43200 := by
    have := abs_sub_abs_le_abs_sub σ' τ'
    have : (1 : ℝ) / 400000 ≤ 1 := by norm_num
    linarith
  have hsq : |σ' ^ 2 - σ ^ 2| ≤ 43200 ^ 2 := by
    have q1 : σ ^ 2 ≤ 43200 ^ 2 := sq_le_sq' (abs_le.mp hσ).1 (abs_le.mp hσ).2
    have q2 : σ' ^ 2 ≤ 43200 ^ 2 := sq_le_sq' (abs_le.mp hσ').1 (abs_le.mp hσ').2
    have q3 := sq_nonneg σ
    have q4 := sq_nonneg σ'
    rw [abs_le]; exact ⟨by linarith only [q1, q4], by linarith only [q2, q3]⟩
  have hdrag : |(q.dΩ + 3 / 2 * q.n * q.C1) * (σ' ^ 2 - σ ^ 2)| ≤ 1 / 10 ^ 5 := by
    rw [abs_mul]
    have r1 : |q.dΩ + 3 / 2 * q.n * q.C1| ≤ 1 / 10 ^ 15 := by
      refine (abs_add_le _ _).trans ?_
      rw [abs_mul, abs_of_nonneg (by linarith : 0 ≤ 3 / 2 * q.n)]
      have : 3 / 2 * q.n * |q.C1| ≤ 3 / 2 * 0.0044 * (1 / 10 ^ 13) := by
        have : q.n ≤ 0.0044 := (m2.trans n2).trans (by norm_num)
        gcongr
      calc _ ≤ 1 / 10 ^ 17 + 3 / 2 * 0.0044 * (1 / 10 ^ 13 : ℝ) := add_le_add c2 this
        _ ≤ _ := by norm_num
    calc _ ≤ 1 / 10 ^ 15 * (43200 ^ 2 : ℝ) := mul_le_mul r1 hsq (abs_nonneg _) (by norm_num)
      _ ≤ _ := by norm_num
  set w := 1.00273791 * (2 * Real.pi) / 1440 with hw
  have hSw : |S - w| ≤ 0.00000096 := by
    have x1 : |S - q.n| ≤ 0.000076 * 0.004376 := hr.trans (by
      have : q.n ≤ 0.004376 := m2.trans n2
      gcongr)
    have x2 : |q.n - tleMotion v| ≤ 0.00004 * 0.004376 := m0.trans (by gcongr)
    have x3 : |tleMotion v - w| ≤ 0.0001 * (2 * 3.15) / 1440 := n0.trans (by
      have : Real.pi ≤ 3.15 := hpi2.le
      gcongr)
    have e : S - w = (S - q.n) + (q.n - tleMotion v) + (tleMotion v - w) := by ring
    rw [e]
    refine (abs_add_le _ _).trans ((add_le_add (abs_add_le _ _) le_rfl).trans ?_)
    refine (add_le_add (add_le_add x1 x2) x3).trans ?_
    norm_num
  have hSabs : |S| ≤ 0.005 := by
    have hw1 : |w| ≤ 0.0045 := by
      rw [hw, abs_of_pos (by positivity)]
      have : Real.pi ≤ 3.15 := hpi2.le
      calc _ ≤ 1.00273791 * (2 * 3.15) / (1440 : ℝ) := by gcongr
        _ ≤ _ := by norm_num
    have hw2 := abs_sub_abs_le_abs_sub S w
    calc |S| ≤ |S - w| + |w| := by linarith
      _ ≤ 0.00000096 + 0.0045 := add_le_add hSw hw1
      _ ≤ _ := by norm_num
  have hstep : |S * ((σ' - τ') - (σ - τ))| ≤ 1 / 10 ^ 6 := by
    rw [abs_mul]
    have : |(σ' - τ') - (σ - τ)| ≤ 2 / 400000 := (abs_sub _ _).trans ((add_le_add b3 a3).trans (by norm_num))
    calc _ ≤ 0.005 * (2 / 400000 : ℝ) := mul_le_mul hSabs this (abs_nonneg _) (by norm_num)
      _ ≤ _ := by norm_num
  have hmain : |(S - w) * (τ' - τ)| ≤ 0.0014 * (|τ' - τ| / 1440) := by
    rw [abs_mul]
    have := mul_le_mul_of_nonneg_right hSw (abs_nonneg (τ' - τ))
    have h0 := abs_nonneg (τ' - τ)
    refine this.trans ?_
    rw [mul_div_assoc', le_div_iff₀ (by norm_num)]
    linarith
  have e : g'.longitude.val - g.longitude.val - ((k' - k : ℤ) : ℝ) * (2 * Real.pi) =
      (g'.longitude.val - (Λ' - Θ' + k' * (2 * Real.pi))) - (g.longitude.val - (Λ - Θ + k * (2 * Real.pi))) +
        (S - w) * (τ' - τ) + S * ((σ' - τ') - (σ - τ)) + (q.dΩ + 3 / 2 * q.n * q.C1) * (σ' ^ 2 - σ ^ 2) - (Θ' - Θ - w * (τ' - τ)) := by
    push_cast
    linear_combination eL
  have n1' := abs_sub ((g'.longitude.val - (Λ' - Θ' + k' * (2 * Real.pi))) - (g.longitude.val - (Λ - Θ + k * (2 * Real.pi))) +
        (S - w) * (τ' - τ) + S * ((σ' - τ') - (σ - τ)) + (q.dΩ + 3 / 2 * q.n * q.C1) * (σ' ^ 2 - σ ^ 2)) (Θ' - Θ - w * (τ' - τ))
  have n2' := abs_add_le ((g'.longitude.val - (Λ' - Θ' + k' * (2 * Real.pi))) - (g.longitude.val - (Λ - Θ + k * (2 * Real.pi))) +
        (S - w) * (τ' - τ) + S * ((σ' - τ') - (σ - τ))) ((q.dΩ + 3 / 2 * q.n * q.C1) * (σ' ^ 2 - σ ^ 2))
  have n3' := abs_add_le ((g'.longitude.val - (Λ' - Θ' + k' * (2 * Real.pi))) - (g.longitude.val - (Λ - Θ + k * (2 * Real.pi))) +
        (S - w) * (τ' - τ)) (S * ((σ' - τ') - (σ - τ)))
  have n4' := abs_add_le ((g'.longitude.val - (Λ' - Θ' + k' * (2 * Real.pi))) - (g.longitude.val - (Λ - Θ + k * (2 * Real.pi)))) ((S - w) * (τ' - τ))
  have n5' := abs_sub (g'.longitude.val - (Λ' - Θ' + k' * (2 * Real.pi))) (g.longitude.val - (Λ - Θ + k * (2 * Real.pi)))
  rw [e]
  have tot : (2.2 * tleEcc v + 0.0015) + (2.2 * tleEcc v + 0.0015) + 0.0014 * (|τ' - τ| / 1440) + 1 / 10 ^ 6 + 1 / 10 ^ 5 + 1 / 10 ^ 5 ≤
      0.0014 * (|τ' - τ| / 1440) + 4.4 * tleEcc v + 0.0032 := by norm_num; linarith
  linarith

/-! ## A television satellite -/

/-- A well-formed set of a geostationary orbit. -/
def tvTle : Tle :=
  { satnum := "26038".toList, year := 06, dayE8 := 17749843500, ndotNeg := false, ndotE8 := 48, nddotNeg := false,
    nddotMant := 0, nddotExpNeg := true, nddotExp := 0, bstarNeg := false, bstarMant := 10000, bstarExpNeg := true,
    bstarExp := 3, inclE4 := 464, nodeE4 := 856213, eccE7 := 2706, argpE4 := 1327741, moE4 := 2207152,
    noE8 := 100271834 }

def tvLine1 : Str := "1 26038U 99071A   06177.49843500  .00000048  00000-0  10000-3 0  6925".toList
def tvLine2 : Str := "2 26038   0.0464  85.6213 0002706 132.7741 220.7152  1.00271834 24129".toList

omit [Libm] in
theorem tv_printed : Printed tvLine1 tvLine2 tvTle where
  ascii1 := by unfold Ascii; decide
  ascii2 := by unfold Ascii; decide
  satnum := by decide
  year := by decide
  day := ⟨0, by decide, by decide, by decide⟩
  ndot := ⟨by decide, ' ', Or.inl rfl, by decide⟩
  nddot := ⟨by decide, by decide, ' ', Or.inl rfl, by decide, by decide⟩
  bstar := ⟨by decide, by decide, ' ', Or.inl rfl, by decide, by decide, by decide⟩
  incl := ⟨2, by decide, by decide, by decide⟩
  node := ⟨1, by decide, by decide, by decide⟩
  ecc := by decide
  argp := ⟨0, by decide, by decide, by decide⟩
  mo := ⟨0, by decide, by decide, by decide⟩
  no := ⟨1, by decide, by decide, by decide⟩

omit [Libm] in
theorem tv_geo : GeoTle tvTle where
  ecc := by decide
  incl := by decide
  day := by decide
  mot_lo := by decide
  mot_hi := by decide
  argp := by decide
  node := by decide
  anom := by decide
  bstar := by
    rw [show tleDrag tvTle = tleDrag navTle from rfl]
    exact nav_high.bstar

/-- The television satellite is, on 2006 July 6 at 12:00, within 1.1 degrees of its longitude on June 26 at 12:00. -/
theorem tv_stays (hL : Libm.Faithful) (time time' : DateTimeUtc) (h1 : time.year = 2006) (h2 : time.month = 6) (h3 : time.day = 26) (h4 : time.hour = 12)
    (h5 : time.minute = 0) (h6 : time.second = 0) (h1' : time'.year = 2006) (h2' : time'.month = 7) (h3' : time'.day = 6) (h4' : time'.hour = 12)
    (h5' : time'.minute = 0) (h6' : time'.second = 0) :
    ∃ (s : Satrec F64) (p p' : SGP4Result F64) (g g' : Geodedic F64) (k : ℤ), twoline2satrec tvLine1 tvLine2 = .ok s ∧
      propogate_datetime s time = some (.ok p) ∧ eci_to_geodedic p.position (gstime_datetime time) = some g ∧
      propogate_datetime s time' = some (.ok p') ∧ eci_to_geodedic p'.position (gstime_datetime time') = some g' ∧
      |g'.longitude.val - g.longitude.val - k * (2 * Real.pi)| ≤ 1.1 * (Real.pi / 180) := by
  obtain ⟨s, year, nE, nD, nD', hs, y1, y2, y3, y4, y5, y6, hh⟩ := C108_geostationary_f64 hL _ _ _ tv_printed (Or.inl rfl) (Or.inl rfl) (Or.inr (by decide))
    tv_geo time ⟨2006, 6, 26⟩ ⟨by decide, by unfold Date.before base; decide, by unfold Date.before; decide⟩ h1 h2 h3
    (by omega) (by omega) (by omega)
    time' ⟨2006, 7, 6⟩ ⟨by decide, by unfold Date.before base; decide, by unfold Date.before; decide⟩ h1' h2' h3'
    (by omega) (by omega) (by omega)
  have ey : year = 2006 := by
    have e : (tvTle.year : ℤ) = 6 := rfl
    rw [e] at y3; omega
  have e1 := (serial_after nE).2.2
  have e2 := (serial_after nD).2.2
  have e2' := (serial_after nD').2.2
  rw [y4, ey] at e1
  rw [y5] at e2
  rw [y6] at e2'
  have e3 : serial ⟨2006, 6, 26⟩ = serial ⟨2006, 1, 1⟩ + 176 := by decide +kernel
  have e3' : serial ⟨2006, 7, 6⟩ = serial ⟨2006, 1, 1⟩ + 186 := by decide +kernel
  have e4 : (nD : ℝ) = nE + 176 := by exact_mod_cast (by omega : nD = nE + 176)
  have e4' : (nD' : ℝ) = nE + 186 := by exact_mod_cast (by omega : nD' = nE + 186)
  have e5 : ((nD : ℝ) - nE + 1 - (tvTle.dayE8 : ℝ) / 10 ^ 8) * 1440 + time.hour * 60 + time.minute + (time.second : ℝ) / 60 =
      (177 - 177.498435) * 1440 + 12 * 60 := by
    rw [e4, h4, h5, h6, show (tvTle.dayE8 : ℝ) = 17749843500 by unfold tvTle; norm_num]; norm_num
  have e5' : ((nD' : ℝ) - nE + 1 - (tvTle.dayE8 : ℝ) / 10 ^ 8) * 1440 + time'.hour * 60 + time'.minute + (time'.second : ℝ) / 60 =
      (187 - 177.498435) * 1440 + 12 * 60 := by
    rw [e4', h4', h5', h6', show (tvTle.dayE8 : ℝ) = 17749843500 by unfold tvTle; norm_num]; norm_num
  dsimp only at hh
  rw [e5, e5'] at hh
  obtain ⟨p, p', g, g', k, k1, k2, k3, k4, k5⟩ := hh (by norm_num [abs_of_pos]) (by norm_num [abs_of_pos])
  refine ⟨s, p, p', g, g', k, hs, k1, k2, k3, k4, k5.trans ?_⟩
  have := Real.pi_gt_d2
  unfold tleEcc tvTle
  norm_num at this ⊢
  linarith

end Sat
