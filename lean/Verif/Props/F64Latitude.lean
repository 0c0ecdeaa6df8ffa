import Verif.Props.F64Track

/-!
# The satellite stays below the latitude of its inclination

C104: the ground track does not get closer to the poles than the inclination of the orbit allows.
-/

namespace Sat
open F64 hiding sub
open Spec Spec.R3 Chain

/-! ## The published theory -/

theorem ik_near {m : Mean} (h : Fair m) (E : ℝ) : |m.ik E - m.i| ≤ 0.00041 := by
  have hc : |m.cos2u E| ≤ 1 := by
    have hs : m.sinu E ^ 2 ≤ 1 := by
      by_cases hr : m.r E = 0
      · unfold Mean.sinu; rw [hr]; simp
      · have := sinu_sq_add_cosu_sq m E hr (h.ecc.trans (by norm_num))
        nlinarith [sq_nonneg (m.cosu E)]
    unfold Mean.cos2u
    rw [abs_le]; constructor <;> nlinarith [sq_nonneg (m.sinu E)]
  have ht : |m.θ * Real.sin m.i| ≤ 1 / 2 := by
    have := Real.sin_sq_add_cos_sq m.i
    unfold Mean.θ
    rw [abs_le]; constructor <;> nlinarith [sq_nonneg (Real.cos m.i + Real.sin m.i), sq_nonneg (Real.cos m.i - Real.sin m.i)]
  have hp : 0.996 ≤ m.pL ^ 2 := by have := h.per; norm_num at this ⊢; nlinarith
  have hp0 : 0 < m.pL ^ 2 := lt_of_lt_of_le (by norm_num) hp
  have hk : |3 * R3.k2 / (2 * m.pL ^ 2)| ≤ 0.00082 := by
    have k0 : 0 < 3 * R3.k2 := by unfold R3.k2 R3.j2; norm_num
    rw [abs_of_pos (div_pos k0 (by linarith)), div_le_iff₀ (by linarith)]
    unfold R3.k2 R3.j2; norm_num at hp ⊢; linarith
  have e : m.ik E - m.i = 3 * R3.k2 / (2 * m.pL ^ 2) * (m.θ * Real.sin m.i) * m.cos2u E := by unfold Mean.ik; ring
  rw [e, abs_mul, abs_mul]
  calc |3 * R3.k2 / (2 * m.pL ^ 2)| * |m.θ * Real.sin m.i| * |m.cos2u E| ≤ 0.00082 * (1 / 2) * 1 :=
        mul_le_mul (mul_le_mul hk ht (abs_nonneg _) (by norm_num)) hc (abs_nonneg _) (by norm_num)
    _ ≤ 0.00041 := by norm_num

theorem abs_arcsin_le_half (s : ℝ) : |Real.arcsin s| ≤ Real.pi / 2 :=
  abs_le.mpr ⟨Real.neg_pi_div_two_le_arcsin s, Real.arcsin_le_pi_div_two s⟩

theorem abs_arcsin_le {x s : ℝ} (h : |s| ≤ |Real.sin x|) : |Real.arcsin s| ≤ |x| := by
  rcases le_total |x| (Real.pi / 2) with hx | hx
  · have e : |Real.sin x| = Real.sin |x| := by
      rcases abs_cases x with ⟨a, b⟩ | ⟨a, b⟩
      · rw [a] at hx ⊢
        exact abs_of_nonneg (Real.sin_nonneg_of_nonneg_of_le_pi b (by linarith [Real.pi_pos]))
      · rw [a] at hx ⊢
        rw [Real.sin_neg]
        exact abs_of_nonpos (Real.sin_nonpos_of_nonpos_of_neg_pi_le b.le (by linarith [Real.pi_pos]))
    rw [e] at h
    have h' := abs_le.mp h
    have hx' : -(Real.pi / 2) ≤ |x| := by linarith [abs_nonneg x, Real.pi_pos]
    rw [abs_le]
    constructor
    · have := Real.monotone_arcsin h'.1
      rwa [Real.arcsin_neg, Real.arcsin_sin hx' hx] at this
    · have := Real.monotone_arcsin h'.2
      rwa [Real.arcsin_sin hx' hx] at this
  · exact (abs_arcsin_le_half s).trans hx

/-- The geocentric latitude of the published position is at most the inclination, or its supplement, up to 0.00041 rad. -/
theorem geocentric_latitude {m : Mean} (h : Fair m) (E : ℝ) (hr : 0 < m.rk E) :
    |Real.arcsin ((vec (m.positionKm E)).z / len (vec (m.positionKm E)))| ≤ |m.i| + 0.00041 ∧
    |Real.arcsin ((vec (m.positionKm E)).z / len (vec (m.positionKm E)))| ≤ |Real.pi - m.i| + 0.00041 := by
  have hl : len (vec (m.positionKm E)) = length (m.positionKm E) := by
    unfold len dot length vec; congr 1; ring
  rw [hl, position_length _ _ hr.le]
  have hk : (0 : ℝ) < kmPerRadius := by unfold kmPerRadius; norm_num
  have e : (vec (m.positionKm E)).z / (m.rk E * kmPerRadius) = Real.sin (m.ik E) * Real.sin (m.uk E) := by
    show m.rk E * m.Uvec E 2 * kmPerRadius / (m.rk E * kmPerRadius) = _
    rw [show m.Uvec E 2 = Real.sin (m.ik E) * Real.sin (m.uk E) from rfl]
    field_simp
  rw [e]
  have hs : |Real.sin (m.ik E) * Real.sin (m.uk E)| ≤ |Real.sin (m.ik E)| := by
    rw [abs_mul]
    exact mul_le_of_le_one_right (abs_nonneg _) (Real.abs_sin_le_one _)
  have hi := ik_near h E
  constructor
  · refine (abs_arcsin_le hs).trans ?_
    have e2 : m.ik E = m.i + (m.ik E - m.i) := by ring
    calc |m.ik E| = |m.i + (m.ik E - m.i)| := by rw [← e2]
      _ ≤ _ := (abs_add_le _ _).trans (by linarith)
  · rw [← Real.sin_pi_sub (m.ik E)] at hs ⊢
    refine (abs_arcsin_le hs).trans ?_
    have e2 : Real.pi - m.ik E = (Real.pi - m.i) - (m.ik E - m.i) := by ring
    rw [e2]
    exact (abs_sub _ _).trans (by linarith)

/-! ## Geodetic and geocentric latitude -/

theorem geodetic_geocentric {G : Geodedic ℝ} {O : Vec3 ℝ} (hG : Stands G O) (hφ : |G.latitude| ≤ Real.pi / 2) (hh : -20 ≤ G.height) (hO : 6378 ≤ len O) :
    |G.latitude - Real.arcsin (O.z / len O)| ≤ 0.0034 := by
  obtain ⟨w1, w2, w3, w4⟩ := w_bounds G.latitude
  rw [stands_iff] at hG
  have hN0 : 6378 ≤ primeVertical G.latitude := by
    unfold primeVertical equatorial
    rw [le_div_iff₀ (lt_of_lt_of_le (by norm_num) w3)]
    exact (mul_le_mul_of_nonneg_left w4 (by norm_num)).trans (by norm_num)
  have hN1 : primeVertical G.latitude ≤ 6400 := by
    unfold primeVertical equatorial
    rw [div_le_iff₀ (lt_of_lt_of_le (by norm_num) w3)]; norm_num at w3 ⊢; linarith
  rw [geodedic_to_ecf_real] at hG
  have hφ' := abs_le.mp hφ
  have hc0 : 0 ≤ Real.cos G.latitude := Real.cos_nonneg_of_mem_Icc ⟨by linarith, hφ'.2⟩
  set φ := G.latitude with hφd
  set N := primeVertical φ with hN
  set R := len O with hR
  have hR0 : 0 < R := lt_of_lt_of_le (by norm_num) hO
  have hε : (0 : ℝ) < ellE2 ∧ (ellE2 : ℝ) ≤ 0.0067 := by
    unfold ellE2 ellF ellA ellB; norm_num
  have hR2 : R ^ 2 = O.x ^ 2 + O.y ^ 2 + O.z ^ 2 := by rw [hR, len_sq]
  have hxy : O.x ^ 2 + O.y ^ 2 = ((N + G.height) * Real.cos φ) ^ 2 := by
    rw [hG]; simp only []
    have := Real.sin_sq_add_cos_sq G.longitude
    linear_combination ((N + G.height) * Real.cos φ) ^ 2 * this
  have hz : O.z = (N * (1 - ellE2) + G.height) * Real.sin φ := by rw [hG]
  have hA : 0 ≤ N + G.height := by linarith
  have hB : 0 ≤ N * (1 - ellE2) + G.height := by nlinarith [hε.1, hε.2]
  have hzR : |O.z / R| ≤ 1 := by
    rw [abs_div, abs_of_pos hR0, div_le_one hR0]
    refine abs_le_of_sq_le_sq ?_ hR0.le
    rw [hR2]; nlinarith [sq_nonneg O.x, sq_nonneg O.y]
  set lam := Real.arcsin (O.z / R) with hlam
  have hsin : Real.sin lam = O.z / R := Real.sin_arcsin (abs_le.mp hzR).1 (abs_le.mp hzR).2
  have hcos : Real.cos lam = (N + G.height) * Real.cos φ / R := by
    rw [hlam, Real.cos_arcsin]
    rw [show 1 - (O.z / R) ^ 2 = ((N + G.height) * Real.cos φ / R) ^ 2 by
      rw [div_pow, div_pow, ← hxy, eq_div_iff (by positivity), sub_mul, div_mul_cancel₀ _ (by positivity)]
      linarith]
    exact Real.sqrt_sq (div_nonneg (mul_nonneg hA hc0) hR0.le)
  have hd : Real.sin (φ - lam) = N * ellE2 * (Real.sin φ * Real.cos φ) / R := by
    rw [Real.sin_sub, hsin, hcos, hz]; ring
  have hsc : |Real.sin φ * Real.cos φ| ≤ 1 / 2 := by
    have := Real.sin_sq_add_cos_sq φ
    rw [abs_le]; constructor <;> nlinarith [sq_nonneg (Real.cos φ + Real.sin φ), sq_nonneg (Real.cos φ - Real.sin φ)]
  have hsb : |Real.sin (φ - lam)| ≤ 0.00337 := by
    rw [hd, abs_div, abs_of_pos hR0, div_le_iff₀ hR0, abs_mul, abs_mul, abs_of_pos hε.1, abs_of_pos (by linarith : 0 < N)]
    calc N * ellE2 * |Real.sin φ * Real.cos φ| ≤ 6400 * 0.0067 * (1 / 2) :=
          mul_le_mul (mul_le_mul hN1 hε.2 hε.1.le (by norm_num)) hsc (abs_nonneg _) (by norm_num)
      _ ≤ 0.00337 * R := by norm_num at hO ⊢; linarith
  have hcd : 0 ≤ Real.cos (φ - lam) := by
    rw [Real.cos_sub, hsin, hcos, hz]
    have : Real.cos φ * ((N + G.height) * Real.cos φ / R) + Real.sin φ * ((N * (1 - ellE2) + G.height) * Real.sin φ / R) =
        ((N + G.height) * Real.cos φ ^ 2 + (N * (1 - ellE2) + G.height) * Real.sin φ ^ 2) / R := by ring
    rw [this]
    exact div_nonneg (add_nonneg (mul_nonneg hA (sq_nonneg _)) (mul_nonneg hB (sq_nonneg _))) hR0.le
  have hl := abs_arcsin_le_half (O.z / R)
  rw [← hlam] at hl
  have hl' := abs_le.mp hl
  set x := φ - lam with hx
  have hxb : |x| ≤ Real.pi := by rw [abs_le]; constructor <;> linarith
  have hsa : |Real.sin x| = Real.sin |x| := by
    rcases abs_cases x with ⟨a, b⟩ | ⟨a, b⟩
    · rw [a] at hxb ⊢; exact abs_of_nonneg (Real.sin_nonneg_of_nonneg_of_le_pi b hxb)
    · rw [a] at hxb ⊢; rw [Real.sin_neg]
      exact abs_of_nonpos (Real.sin_nonpos_of_nonpos_of_neg_pi_le b.le (by linarith))
  rw [hsa] at hsb
  by_contra hcon
  rw [not_le] at hcon
  have hx2 : |x| ≤ Real.pi / 2 := by
    by_contra h2
    rw [not_le] at h2
    have := Real.cos_neg_of_pi_div_two_lt_of_lt h2 (by linarith [Real.pi_pos])
    rw [Real.cos_abs] at this
    linarith
  have h3 := Real.sin_le_sin_of_le_of_le_pi_div_two (x := 0.0034) (by have := Real.pi_gt_three; norm_num at this ⊢; linarith) hx2 hcon.le
  have h4 := Real.sin_gt_sub_cube (x := 0.0034) (by norm_num)
  norm_num at *; linarith

/-! ## In doubles -/

variable [Libm]

/-- **C104.** From the printed set and a calendar date within a month, in doubles: the latitude that `eci_to_geodedic` returns for the satellite is at most the printed inclination, and at most its supplement to 180 degrees for
retrograde orbits, up to 0.004 radian (0.23 degrees, most of which is the difference of geodetic and geocentric latitude). -/
theorem C104_latitude_f64 (hL : Libm.Faithful) (l1 l2 : Str) (v : Tle) (h : Printed l1 l2 v) (hpos : v.nddotNeg = false ∨ v.nddotMant = 0)
    (hnd : Normal v.nddotMant) (hb : Normal v.bstarMant) (hday : v.dayE8 ≤ 400 * 10 ^ 8) (hl : LowTle v 0)
    (time : DateTimeUtc) (d : Date) (hd : d.InRange) (hy : time.year = d.year) (hm : time.month = d.month) (hdd : time.day = d.day)
    (hh : time.hour < 24) (hmi : time.minute < 60) (hse : time.second < 60) :
    ∃ (s : Satrec F64) (year nE nD : ℕ), twoline2satrec l1 l2 = .ok s ∧
      1957 ≤ year ∧ year ≤ 2056 ∧ (year : ℤ) % 100 = v.year ∧ base.after nE = ⟨year, 1, 1⟩ ∧ base.after nD = d ∧
      let τ : ℝ := ((nD : ℝ) - nE + 1 - (v.dayE8 : ℝ) / 10 ^ 8) * 1440 + time.hour * 60 + time.minute + (time.second : ℝ) / 60
      |τ| ≤ 43199 → |tleDrag v * τ| * tleLow v ^ 5 ≤ 1.99 →
        ∃ (p : SGP4Result F64) (g : Geodedic F64), propogate_datetime s time = some (.ok p) ∧
          eci_to_geodedic p.position (gstime_datetime time) = some g ∧
          let incl := (v.inclE4 : ℝ) / 10 ^ 4 * (Real.pi / 180)
          |g.latitude.val| ≤ incl + 0.004 ∧ |g.latitude.val| ≤ Real.pi - incl + 0.004 := by
  obtain ⟨s, year, nE, nD, hs, y1, y2, y3, y4, y5, hh'⟩ := C91_ground_track_f64 hL l1 l2 v h hpos hnd hb hday hl time d hd hy hm hdd hh hmi hse
  refine ⟨s, year, nE, nD, hs, y1, y2, y3, y4, y5, ?_⟩
  intro τ h1 h2
  obtain ⟨p, E, g, k1, -, -, k4, ⟨G, g1, g2, -, g4⟩, k6⟩ := hh' h1 h2
  refine ⟨p, g, k1, k4, ?_⟩
  intro incl
  have hQ : Quiet (tleOrbit v) τ := quiet_low hL h hpos hnd hb { hl with time := h1.trans (by norm_num), drag := h2.trans (by norm_num) }
  have hF := hQ.fair (tleNode v)
  have hper : 6618 ≤ 6378.137 * ((tleOrbit v).a * (1 - tleEcc v)) := by have := hl.perigee; norm_num at this ⊢; linarith
  have hH : 6378.137 * ((tleOrbit v).a * (1 - tleEcc v)) - 60 ≤ _ := position_high hQ (tleNode v) E
  set m := (tleOrbit v).mean (tleNode v) τ with hm'
  set O := rotZ (-siderealAngle nD time) (vec (m.positionKm E)) with hO
  have e : len O = len (vec (m.positionKm E)) := by
    have := rotZ_len (-siderealAngle nD time) (vec (m.positionKm E)) ⟨0, 0, 0⟩
    have z : rotZ (-siderealAngle nD time) ⟨0, 0, 0⟩ = ⟨0, 0, 0⟩ := by simp [rotZ]
    rw [z] at this
    simpa [Spec.sub] using this
  have ez : O.z = (vec (m.positionKm E)).z := rfl
  have hOl : 6378 ≤ len O := by rw [e]; linarith
  have hGh : 0 ≤ G.height := by norm_num at hper g4 ⊢; linarith
  obtain ⟨-, -, t3, -⟩ := k6 G g1 g2 (by linarith)
  have hgeo := geodetic_geocentric g1 g2 (by linarith) hOl
  have hrk : 0 < m.rk E := by
    obtain ⟨q1, q2, -⟩ := hQ.shape (tleNode v)
    obtain ⟨e0, e1⟩ := hQ.ecc
    obtain ⟨v1, v2⟩ := abs_le.mp q1
    have he0 : 0 ≤ m.e := le_max_of_le_right (by norm_num)
    have he2 : m.e ≤ 1 / 2 := by
      have : m.e - (tleOrbit v).e ≤ 0.00076 := v2
      norm_num at *; linarith
    have hp1 : 1 ≤ m.a * (1 - m.e) := le_trans (by norm_num) q2
    have hr := radius_low m E ⟨he0, he2⟩ hp1
    obtain ⟨-, -, r0, r1, -, -, hrk, -, -⟩ := perturbation_bounds m E ⟨he0, he2⟩ hp1
    obtain ⟨z1, z2⟩ := abs_le.mp hrk
    norm_num at *; linarith
  obtain ⟨c1, c2⟩ := geocentric_latitude hF E hrk
  rw [← e, ← ez] at c1 c2
  have hi : m.i = incl := rfl
  have hi0 : 0 ≤ incl := by positivity
  have hi1 : 0 ≤ Real.pi - incl := by
    have : (v.inclE4 : ℝ) ≤ 1710000 := by exact_mod_cast hl.incl
    have hp := Real.pi_pos
    simp only [incl]
    nlinarith
  rw [hi, abs_of_nonneg hi0] at c1
  rw [hi, abs_of_nonneg hi1] at c2
  have hlat : |g.latitude.val - G.latitude| ≤ 0.00003 := by
    have hc := Real.cos_le_one G.latitude
    by_contra hcon
    rw [not_le] at hcon
    have : 0.00003 * 6378 ≤ |g.latitude.val - G.latitude| * len O := mul_le_mul hcon.le hOl (by norm_num) (abs_nonneg _)
    norm_num at *; linarith
  have tri : |g.latitude.val| ≤ |g.latitude.val - G.latitude| + |G.latitude - Real.arcsin (O.z / len O)| + |Real.arcsin (O.z / len O)| := by
    have : g.latitude.val = (g.latitude.val - G.latitude) + (G.latitude - Real.arcsin (O.z / len O)) + Real.arcsin (O.z / len O) := by ring
    calc |g.latitude.val| = |(g.latitude.val - G.latitude) + (G.latitude - Real.arcsin (O.z / len O)) + Real.arcsin (O.z / len O)| := by rw [← this]
      _ ≤ _ := (abs_add_le _ _).trans (add_le_add (abs_add_le _ _) le_rfl)
  constructor <;> (norm_num at *; linarith)

/-- The weather satellite of `Props/F64Text.lean` (inclination 99.2 degrees) on 2020 February 5 at 6:30:15 is not north or south of 81.2 degrees. -/
theorem noaa_latitude (hL : Libm.Faithful) (time : DateTimeUtc) (h1 : time.year = 2020) (h2 : time.month = 2) (h3 : time.day = 5) (h4 : time.hour = 6)
    (h5 : time.minute = 30) (h6 : time.second = 15) :
    ∃ (s : Satrec F64) (p : SGP4Result F64) (g : Geodedic F64), twoline2satrec noaaLine1 noaaLine2 = .ok s ∧
      propogate_datetime s time = some (.ok p) ∧ eci_to_geodedic p.position (gstime_datetime time) = some g ∧ |g.latitude.val| ≤ 81.2 * (Real.pi / 180) := by
  obtain ⟨s, year, nE, nD, hs, y1, y2, y3, y4, y5, hh⟩ := C104_latitude_f64 hL _ _ _ noaa_printed (Or.inl rfl) (Or.inl rfl) (Or.inr (by decide))
    (by decide) (noaa_low (τ := 0) (by norm_num)) time ⟨2020, 2, 5⟩ ⟨by decide, by unfold Date.before base; decide, by unfold Date.before; decide⟩ h1 h2 h3
    (by omega) (by omega) (by omega)
  have ey : year = 2020 := by
    have e : (noaaTle.year : ℤ) = 20 := rfl
    rw [e] at y3; omega
  have e1 := (serial_after nE).2.2
  have e2 := (serial_after nD).2.2
  rw [y4, ey] at e1
  rw [y5] at e2
  have e3 : serial ⟨2020, 2, 5⟩ = serial ⟨2020, 1, 1⟩ + 35 := by decide +kernel
  have e4 : (nD : ℝ) = nE + 35 := by exact_mod_cast (by omega : nD = nE + 35)
  have e5 : ((nD : ℝ) - nE + 1 - (noaaTle.dayE8 : ℝ) / 10 ^ 8) * 1440 + time.hour * 60 + time.minute + (time.second : ℝ) / 60 =
      (36 - 29.54791435) * 1440 + 6 * 60 + 30 + 15 / 60 := by
    rw [e4, h4, h5, h6, show (noaaTle.dayE8 : ℝ) = 2954791435 by unfold noaaTle; norm_num]; norm_num
  dsimp only at hh
  rw [e5] at hh
  have hd : tleDrag noaaTle = 59621 / 10 ^ 9 := by
    unfold tleDrag impliedValue sexp noaaTle; norm_num
  obtain ⟨p, g, k1, k2, -, k4⟩ := hh (by norm_num [abs_of_pos]) (by rw [hd, noaa_lowness]; norm_num [abs_of_pos])
  refine ⟨s, p, g, hs, k1, k2, k4.trans ?_⟩
  rw [show (noaaTle.inclE4 : ℝ) = 991934 by unfold noaaTle; norm_num]
  have := Real.pi_gt_three
  norm_num at this ⊢; linarith

end Sat
