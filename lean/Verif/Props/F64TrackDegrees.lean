import Verif.Props.F64Track
import Verif.Props.F64Degrees
import Verif.Props.F64Constants
/-!
# C92: from the printed set and a date to latitude and longitude in degrees
-/

namespace Sat
open F64 hiding sub
open Spec Spec.R3 Chain
variable [Libm]

/-- the conversion to degrees in doubles, for angles up to half a turn -/
theorem degrees_near {x : F64} (hx : x.Fin) (hb : |x.val| ≤ 3.15) : Close (radians_to_degrees x) (x.val * (180 / Real.pi)) (1 / 10 ^ 12) := by
  have hp := Real.pi_gt_d4
  have hb2 : (314 / 100 : ℝ) ≤ |Real.pi| := by rw [abs_of_pos Real.pi_pos]; norm_num at *; linarith
  have h : Q (RAD_TO_DEG : F64) (180 / Real.pi) 58 (1 / 10 ^ 14) :=
    (((Q.int 1800 true 1 180 (by norm_num)).div q_pi (314 / 100) 58 hb2
      (quot_le (A := 180) (by norm_num) hb2 (by norm_num) (by norm_num))).mono (by norm_num) (by norm_num)).to (by norm_num)
  have g := ((Q.exact hx hb).mul h).mono (A' := 183) (δ' := 1 / 10 ^ 12) (by norm_num) (by norm_num)
  exact ⟨g.fin, g.err⟩

/-- a position of the ground track in degrees against geodetic coordinates `G` (radians) of the point `O`: latitude within 0.0015 degrees, longitude up to
whole turns within `300 δ / m` degrees for points `m` km off the axis -/
def ShownAt (lat long : F64) (G : Geodedic ℝ) (O : Vec3 ℝ) (δ : ℝ) : Prop :=
  Close lat (G.latitude * (180 / Real.pi)) 0.0015 ∧ |lat.val| ≤ 90 ∧ long.Fin ∧ |long.val| ≤ 180 ∧
  ∀ m, 20 * δ ≤ m → m ^ 2 ≤ O.x ^ 2 + O.y ^ 2 → ∃ k : ℤ, |long.val - (G.longitude * (180 / Real.pi) + k * 360)| ≤ 300 * δ / m

theorem shown_of_tracks {g : Geodedic F64} {G : Geodedic ℝ} {O : Vec3 ℝ} (hT : Tracks g G O (4.3 / 10 ^ 3)) (hO : 6550 ≤ len O) (hOm : len O ≤ 50000) :
    ∃ lat long, degrees_lat g.latitude = some lat ∧ degrees_long g.longitude = some long ∧ ShownAt lat long G O (4.3 / 10 ^ 3) := by
  obtain ⟨l1, l2, l3, l4, l5, l6, -⟩ := hT
  have hlat := (le_pi_iff l1).2.1 l2
  have hlon := (le_pi_iff l4).1.1 l5
  have hp := Real.pi_gt_d4
  have hp2 := Real.pi_lt_d4
  have p0 := Real.pi_pos
  obtain ⟨h1, -, -, -, v1, -, -, -⟩ := C46_f64_checked g.latitude
  obtain ⟨-, h2, -, -, -, v2, -, -⟩ := C46_f64_checked g.longitude
  have a1 : degrees_lat g.latitude = some (radians_to_degrees g.latitude) := by
    cases ho : degrees_lat g.latitude with
    | none => exact absurd (h1.1 ho) (not_outside (Or.inr ⟨l1, hlat⟩))
    | some y => rw [v1 y ho]
  have a2 : degrees_long g.longitude = some (radians_to_degrees g.longitude) := by
    cases ho : degrees_long g.longitude with
    | none => exact absurd (h2.1 ho) (not_outside (Or.inr ⟨l4, hlon⟩))
    | some y => rw [v2 y ho]
  have r1 := (degrees_in_range l1).2 hlat
  have r2 := (degrees_in_range l4).1 hlon
  have d1 := degrees_near l1 (l2.trans (by norm_num at *; linarith))
  have d2 := degrees_near l4 (l5.trans (by norm_num at *; linarith))
  have hq : 180 / Real.pi ≤ 57.3 := by rw [div_le_iff₀ p0]; norm_num at *; linarith
  have hq0 : 0 < 180 / Real.pi := by positivity
  refine ⟨_, _, a1, a2, ⟨d1.1, ?_⟩, r1.2, r2.1, r2.2, ?_⟩
  · have hc := Real.cos_le_one G.latitude
    have hs : |g.latitude.val - G.latitude| ≤ 2.58 / 10 ^ 5 := by
      have t0 := abs_nonneg (g.latitude.val - G.latitude)
      have t1 : |g.latitude.val - G.latitude| * 6550 ≤ |g.latitude.val - G.latitude| * len O := mul_le_mul_of_nonneg_left hO t0
      norm_num at *; linarith
    have e : (radians_to_degrees g.latitude).val - G.latitude * (180 / Real.pi) =
        ((radians_to_degrees g.latitude).val - g.latitude.val * (180 / Real.pi)) + (g.latitude.val - G.latitude) * (180 / Real.pi) := by ring
    rw [e]
    refine (abs_add_le _ _).trans ?_
    rw [abs_mul, abs_of_pos hq0]
    have := mul_le_mul hs hq hq0.le (by norm_num)
    have := d1.2
    norm_num at *; linarith
  · intro m hm1 hm2
    obtain ⟨k, hk⟩ := l6 m hm1 hm2
    refine ⟨k, ?_⟩
    have hm0 : 0 < m := lt_of_lt_of_le (by norm_num) hm1
    have e : (radians_to_degrees g.longitude).val - (G.longitude * (180 / Real.pi) + k * 360) =
        ((radians_to_degrees g.longitude).val - g.longitude.val * (180 / Real.pi)) +
          (g.longitude.val - (G.longitude + k * (2 * Real.pi))) * (180 / Real.pi) := by
      field_simp; ring
    rw [e]
    refine (abs_add_le _ _).trans ?_
    rw [abs_mul, abs_of_pos hq0]
    have t1 := mul_le_mul hk hq hq0.le (by positivity)
    have hmO : m ≤ len O := by
      refine le_of_sq_le_sq ?_ (by linarith)
      rw [len_sq]; nlinarith [sq_nonneg O.z]
    have t2 : 1 / 10 ^ 12 ≤ 0.01 / m := by
      rw [le_div_iff₀ hm0]; norm_num at *; linarith
    have t3 : 5 * (4.3 / 10 ^ 3) / m * 57.3 + 0.01 / m ≤ 300 * (4.3 / 10 ^ 3) / m := by
      rw [div_mul_eq_mul_div, ← add_div]
      exact div_le_div_of_nonneg_right (by norm_num) hm0.le
    exact (add_le_add (d2.2.trans t2) t1).trans (by linarith)

/-- **C92.**  From the printed set and a calendar date, in doubles, to latitude and longitude in degrees: nothing panics on the way, and what is shown is the
geodetic latitude (0.0015 degrees) and longitude (0.0013 degrees for points 1000 km off the axis) of the position of the published theory at that instant. -/
theorem C92_ground_track_degrees_f64 (hL : Libm.Faithful) (l1 l2 : Str) (v : Tle) (h : Printed l1 l2 v) (hpos : v.nddotNeg = false ∨ v.nddotMant = 0)
    (hnd : Normal v.nddotMant) (hb : Normal v.bstarMant) (hday : v.dayE8 ≤ 400 * 10 ^ 8) (hl : LowTle v 0)
    (time : DateTimeUtc) (d : Date) (hd : d.InRange) (hy : time.year = d.year) (hm : time.month = d.month) (hdd : time.day = d.day)
    (hh : time.hour < 24) (hmi : time.minute < 60) (hse : time.second < 60) :
    ∃ (s : Satrec F64) (year nE nD : ℕ), twoline2satrec l1 l2 = .ok s ∧
      1957 ≤ year ∧ year ≤ 2056 ∧ (year : ℤ) % 100 = v.year ∧ base.after nE = ⟨year, 1, 1⟩ ∧ base.after nD = d ∧
      let τ : ℝ := ((nD : ℝ) - nE + 1 - (v.dayE8 : ℝ) / 10 ^ 8) * 1440 + time.hour * 60 + time.minute + (time.second : ℝ) / 60
      |τ| ≤ 43199 → |tleDrag v * τ| * tleLow v ^ 5 ≤ 1.99 →
        let m := (tleOrbit v).mean (tleNode v) τ
        ∃ (p : SGP4Result F64) (E : ℝ) (g : Geodedic F64) (lat long : F64), propogate_datetime s time = some (.ok p) ∧
          m.kepler E = 0 ∧ (∀ E', m.kepler E' = 0 → E' = E) ∧
          eci_to_geodedic p.position (gstime_datetime time) = some g ∧ degrees_lat g.latitude = some lat ∧ degrees_long g.longitude = some long ∧
          let O := rotZ (-siderealAngle nD time) (vec (m.positionKm E))
          (∃ G : Geodedic ℝ, Stands G O ∧ |G.latitude| ≤ Real.pi / 2 ∧ |G.longitude| ≤ Real.pi ∧
            6378.137 * ((tleOrbit v).a * (1 - tleEcc v) - 1) - 125 ≤ G.height) ∧
          ∀ G : Geodedic ℝ, Stands G O → |G.latitude| ≤ Real.pi / 2 → -100 ≤ G.height → ShownAt lat long G O (4.3 / 10 ^ 3) := by
  obtain ⟨s, year, nE, nD, hs, y1, y2, y3, y4, y5, hh'⟩ := C91_ground_track_f64 hL l1 l2 v h hpos hnd hb hday hl time d hd hy hm hdd hh hmi hse
  refine ⟨s, year, nE, nD, hs, y1, y2, y3, y4, y5, ?_⟩
  intro τ h1 h2 m
  obtain ⟨p, E, g, k1, k2, k3, k4, ⟨G, s1, s2, s3, s4⟩, k5⟩ := hh' h1 h2
  have hQ : Quiet (tleOrbit v) τ := quiet_low hL h hpos hnd hb { hl with time := h1.trans (by norm_num), drag := h2.trans (by norm_num) }
  have hB := position_bound hQ (tleNode v) E
  have hper : 6618 ≤ 6378.137 * ((tleOrbit v).a * (1 - tleEcc v)) := by have := hl.perigee; norm_num at this ⊢; linarith
  have hD : 6550 ≤ 6378.137 * ((tleOrbit v).a * (1 - tleEcc v)) - 60 := by linarith
  have hG : -100 ≤ G.height := by norm_num at s4 hper ⊢; linarith
  have hH := position_high hQ (tleNode v) E
  set X := vec (m.positionKm E) with hX
  set O := rotZ (-siderealAngle nD time) X with hO
  have hlen : len O = len X := by
    have hsq : len O ^ 2 = len X ^ 2 := by
      have := Real.sin_sq_add_cos_sq (siderealAngle nD time)
      rw [len_sq, len_sq, hO]
      simp only [rotZ, Real.sin_neg, Real.cos_neg]; linear_combination (X.x ^ 2 + X.y ^ 2) * this
    exact (pow_left_inj₀ (Real.sqrt_nonneg _) (Real.sqrt_nonneg _) two_ne_zero).mp hsq
  have lo : 6550 ≤ len O := by rw [hlen]; exact hD.trans hH
  have hi : len O ≤ 50000 := by
    rw [hlen]
    refine le_of_sq_le_sq ?_ (by norm_num)
    rw [len_sq]
    have sq : ∀ {w : ℝ}, |w| ≤ 20300 → w ^ 2 ≤ 20300 ^ 2 := fun {w} hw => by
      rw [← sq_abs]; gcongr
    have b0 : X.x ^ 2 ≤ 20300 ^ 2 := sq (hB 0)
    have b1 : X.y ^ 2 ≤ 20300 ^ 2 := sq (hB 1)
    have b2 : X.z ^ 2 ≤ 20300 ^ 2 := sq (hB 2)
    norm_num at *; linarith
  obtain ⟨lat, long, d1, d2, -⟩ := shown_of_tracks (k5 G s1 s2 hG) lo hi
  refine ⟨p, E, g, lat, long, k1, k2, k3, k4, d1, d2, ⟨G, s1, s2, s3, s4⟩, fun G' q1 q2 q3 => ?_⟩
  obtain ⟨lat', long', e1, e2, e3⟩ := shown_of_tracks (k5 G' q1 q2 q3) lo hi
  rw [d1] at e1
  rw [d2] at e2
  injection e1 with e1
  injection e2 with e2
  rw [e1, e2]; exact e3

/-- The weather satellite of `Props/F64Text.lean` on 2020 February 5 at 6:30:15. -/
theorem noaa_shown (hL : Libm.Faithful) (time : DateTimeUtc) (h1 : time.year = 2020) (h2 : time.month = 2) (h3 : time.day = 5) (h4 : time.hour = 6)
    (h5 : time.minute = 30) (h6 : time.second = 15) :
    ∃ (s : Satrec F64) (p : SGP4Result F64) (g : Geodedic F64) (lat long : F64), twoline2satrec noaaLine1 noaaLine2 = .ok s ∧
      propogate_datetime s time = some (.ok p) ∧ eci_to_geodedic p.position (gstime_datetime time) = some g ∧ degrees_lat g.latitude = some lat ∧
      degrees_long g.longitude = some long ∧ |lat.val| ≤ 90 ∧ |long.val| ≤ 180 := by
  obtain ⟨s, p, g, G, O, k1, k2, k3, k4, k5, hT⟩ := noaa_track hL time h1 h2 h3 h4 h5 h6
  obtain ⟨l1, l2, -, l4, l5, -⟩ := hT
  have hlat := (le_pi_iff l1).2.1 l2
  have hlon := (le_pi_iff l4).1.1 l5
  obtain ⟨u1, -, -, -, v1, -, -, -⟩ := C46_f64_checked g.latitude
  obtain ⟨-, u2, -, -, -, v2, -, -⟩ := C46_f64_checked g.longitude
  cases ho : degrees_lat g.latitude with
  | none => exact absurd (u1.1 ho) (not_outside (Or.inr ⟨l1, hlat⟩))
  | some y =>
    cases ho' : degrees_long g.longitude with
    | none => exact absurd (u2.1 ho') (not_outside (Or.inr ⟨l4, hlon⟩))
    | some z =>
      refine ⟨s, p, g, y, z, k1, k2, k3, ho, ho', ?_, ?_⟩
      · rw [v1 y ho]; exact ((degrees_in_range l1).2 hlat).2
      · rw [v2 z ho']; exact ((degrees_in_range l4).1 hlon).2

end Sat
