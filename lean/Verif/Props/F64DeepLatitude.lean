import Verif.Props.F64Latitude
import Verif.Props.F64DeepSight

/-!
# Deep-space satellites stay below the latitude of their inclination

C104 for deep-space orbits: a geostationary satellite stays over the equator.
-/

namespace Sat
open F64 hiding sub
open Spec Spec.R3 Spec.SDP Chain

/-- a point on a plane of inclination `ι` has a geocentric latitude of at most `ι`, and at most its supplement -/
theorem latitude_of_plane {X : Vec3 ℝ} {ι i δ : ℝ} (hX : 0 < len X) (hι : |ι - i| ≤ δ) (hz : |X.z| ≤ |Real.sin ι| * len X) :
    |Real.arcsin (X.z / len X)| ≤ |i| + δ ∧ |Real.arcsin (X.z / len X)| ≤ |Real.pi - i| + δ := by
  have hs : |X.z / len X| ≤ |Real.sin ι| := by rw [abs_div, abs_of_pos hX, div_le_iff₀ hX]; exact hz
  constructor
  · refine (abs_arcsin_le hs).trans ?_
    calc |ι| = |i + (ι - i)| := by ring_nf
      _ ≤ _ := (abs_add_le _ _).trans (by linarith)
  · rw [← Real.sin_pi_sub ι] at hs
    refine (abs_arcsin_le hs).trans ?_
    rw [show Real.pi - ι = (Real.pi - i) - (ι - i) by ring]
    exact (abs_sub _ _).trans (by linarith)

variable [Libm]

/-- **C104**, deep-space orbits: from the printed set and a calendar date within a month, in doubles, the latitude that `eci_to_geodedic` returns is at
most the printed inclination, and at most its supplement to 180 degrees for retrograde orbits, up to 0.022 radian (1.3 degrees: what moon and sun can do
to the inclination, and the difference of geodetic and geocentric latitude). -/
theorem C104_deep_latitude_f64 (hL : Libm.Faithful) (l1 l2 : Str) (v : Tle) (h : Printed l1 l2 v) (hpos : v.nddotNeg = false ∨ v.nddotMant = 0)
    (hnd : Normal v.nddotMant) (hb : Normal v.bstarMant) (hl : HighTle v)
    (time : DateTimeUtc) (d : Date) (hd : d.InRange) (hy : time.year = d.year) (hm : time.month = d.month) (hdd : time.day = d.day)
    (hh : time.hour < 24) (hmi : time.minute < 60) (hse : time.second < 60) :
    ∃ (s : Satrec F64) (year nE nD : ℕ), twoline2satrec l1 l2 = .ok s ∧
      1957 ≤ year ∧ year ≤ 2056 ∧ (year : ℤ) % 100 = v.year ∧ base.after nE = ⟨year, 1, 1⟩ ∧ base.after nD = d ∧
      let τ : ℝ := ((nD : ℝ) - nE + 1 - (v.dayE8 : ℝ) / 10 ^ 8) * 1440 + time.hour * 60 + time.minute + (time.second : ℝ) / 60
      |τ| ≤ 43199 →
        ∃ (p : SGP4Result F64) (g : Geodedic F64), propogate_datetime s time = some (.ok p) ∧
          eci_to_geodedic p.position (gstime_datetime time) = some g ∧
          let incl := (v.inclE4 : ℝ) / 10 ^ 4 * (Real.pi / 180)
          |g.latitude.val| ≤ incl + 0.022 ∧ |g.latitude.val| ≤ Real.pi - incl + 0.022 := by
  obtain ⟨s, year, nE, nD, hs, y1, y2, y3, y4, y5, hh'⟩ := deep_sized_at_date hL l1 l2 v h hpos hnd hb hl time d hd hy hm hdd hh hmi hse
  refine ⟨s, year, nE, nD, hs, y1, y2, y3, y4, y5, ?_⟩
  intro τ h1
  obtain ⟨τ', p, k1, k2, k, k3, k4, k5, k6, -, k8, k9, -, ⟨ι, i1, i2⟩, -⟩ := hh' h1
  obtain ⟨g1, g3, K, g2⟩ := sidereal_f64 time d hd hy hm hdd hh hmi hse nD y5 (day_small hl.day y1 y2 y4 h1)
  set m := carriedMean (tleOrbit v) (tleNode v) (2415079.5 + nE - 1 + (v.dayE8 : ℝ) / 10 ^ 8 - 2415020) τ' with hm
  have hbd := far_bounded k9 k6
  set X := vec (m.positionKm (m.newton k)) with hX
  set O := rotZ (-siderealAngle nD time) X with hO
  have hback : rotZ (siderealAngle nD time) O = X := by
    have := Real.sin_sq_add_cos_sq (siderealAngle nD time)
    rw [hO]
    ext
    · simp only [rotZ, Real.sin_neg, Real.cos_neg]; linear_combination X.x * this
    · simp only [rotZ, Real.sin_neg, Real.cos_neg]; linear_combination X.y * this
    · rfl
  obtain ⟨G, s1, s2, s3, s4⟩ := has_place O (D := 6569) (by norm_num) (by
    rw [← len_sq, hO, rotZ_length]
    gcongr)
  have hG : 0 ≤ G.height := by norm_num at s4; linarith
  have hc : p.position.Close X (1.2 / 10 ^ 3) := ⟨⟨k6.1.1, k6.1.2.trans (by norm_num)⟩, ⟨k6.2.1.1, k6.2.1.2.trans (by norm_num)⟩,
    ⟨k6.2.2.1, k6.2.2.2.trans (by norm_num)⟩⟩
  obtain ⟨g, t1, t2⟩ := track_near hL hbd g1 g3 s1 s2 (by linarith) g2 (δ := 1.2 / 10 ^ 3) (by norm_num) (by norm_num) (by norm_num) (by rw [hback]; exact hc)
  refine ⟨p, g, k1, t1, ?_⟩
  intro incl
  have e : len O = len X := rotZ_length _ _
  have ez : O.z = X.z := rfl
  have hOl : 6378 ≤ len O := by rw [e]; linarith
  obtain ⟨-, -, t3, -⟩ := t2
  have hgeo := geodetic_geocentric s1 s2 (by linarith) hOl
  obtain ⟨c1, c2⟩ := latitude_of_plane (lt_of_lt_of_le (by norm_num) k8) i1 i2
  rw [← e, ← ez] at c1 c2
  have hi0 : 0 ≤ incl := by positivity
  have hi1 : 0 ≤ Real.pi - incl := by
    have : (v.inclE4 : ℝ) ≤ 1600000 := by exact_mod_cast hl.incl
    have hp := Real.pi_pos
    simp only [incl]
    nlinarith
  rw [show (tleOrbit v).inc = incl from rfl, abs_of_nonneg hi0] at c1
  rw [show (tleOrbit v).inc = incl from rfl, abs_of_nonneg hi1] at c2
  have hlat : |g.latitude.val - G.latitude| ≤ 0.00003 := by
    have hc := Real.cos_le_one G.latitude
    by_contra hcon
    rw [not_le] at hcon
    have : 0.00003 * 6378 ≤ |g.latitude.val - G.latitude| * len O := mul_le_mul hcon.le hOl (by norm_num) (abs_nonneg _)
    norm_num at *; linarith
  have tri : |g.latitude.val| ≤ |g.latitude.val - G.latitude| + |G.latitude - Real.arcsin (O.z / len O)| + |Real.arcsin (O.z / len O)| := by
    have : g.latitude.val = (g.latitude.val - G.latitude) + (G.latitude - Real.arcsin (O.z / len O)) + Real.arcsin (O.z / len O) := by ring
    calc |g.latitude.val| = |(g.latitude.val - G.latitude) + (G.latitude - Real.arcsin (O.z / len O)) + Real.arcsin (O.z / len O)| := by rw [← this]
      _ ≤ _ := (abs_add_le _ _).trans (add_le_add (abs_add_le _ _) le_rfl)
  clear hback hc hbd k6
  constructor <;> (norm_num at *; linarith)

/-- The navigation satellite of `Props/F64DeepText.lean` (inclination 55.4 degrees) on 1997 October 1 at 12:00 is not north or south of 57 degrees. -/
theorem nav_latitude (hL : Libm.Faithful) (time : DateTimeUtc) (h1 : time.year = 1997) (h2 : time.month = 10) (h3 : time.day = 1) (h4 : time.hour = 12)
    (h5 : time.minute = 0) (h6 : time.second = 0) :
    ∃ (s : Satrec F64) (p : SGP4Result F64) (g : Geodedic F64), twoline2satrec navLine1 navLine2 = .ok s ∧
      propogate_datetime s time = some (.ok p) ∧ eci_to_geodedic p.position (gstime_datetime time) = some g ∧ |g.latitude.val| ≤ 57 * (Real.pi / 180) := by
  obtain ⟨s, year, nE, nD, hs, y1, y2, y3, y4, y5, hh⟩ := C104_deep_latitude_f64 hL _ _ _ nav_printed (Or.inl rfl) (Or.inl rfl) (Or.inr (by decide))
    nav_high time ⟨1997, 10, 1⟩ ⟨by decide, by unfold Date.before base; decide, by unfold Date.before; decide⟩ h1 h2 h3
    (by omega) (by omega) (by omega)
  have ey : year = 1997 := by
    have e : (navTle.year : ℤ) = 97 := rfl
    rw [e] at y3; omega
  have e1 := (serial_after nE).2.2
  have e2 := (serial_after nD).2.2
  rw [y4, ey] at e1
  rw [y5] at e2
  have e3 : serial ⟨1997, 10, 1⟩ = serial ⟨1997, 1, 1⟩ + 273 := by decide +kernel
  have e4 : (nD : ℝ) = nE + 273 := by exact_mod_cast (by omega : nD = nE + 273)
  have e5 : ((nD : ℝ) - nE + 1 - (navTle.dayE8 : ℝ) / 10 ^ 8) * 1440 + time.hour * 60 + time.minute + (time.second : ℝ) / 60 =
      (274 - 264.51782528) * 1440 + 12 * 60 := by
    rw [e4, h4, h5, h6, show (navTle.dayE8 : ℝ) = 26451782528 by unfold navTle; norm_num]; norm_num
  dsimp only at hh
  rw [e5] at hh
  obtain ⟨p, g, k1, k2, k3, -⟩ := hh (by norm_num [abs_of_pos])
  refine ⟨s, p, g, hs, k1, k2, k3.trans ?_⟩
  have := Real.pi_gt_three
  unfold navTle; norm_num at this ⊢; linarith

end Sat
