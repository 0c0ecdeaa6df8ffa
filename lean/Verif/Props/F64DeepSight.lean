import Verif.Props.F64DeepText
import Verif.Props.F64Track
/-!
# C94: look angles and ground track of deep-space satellites, in doubles, from the printed text, a date and an observer

The chain of C90 and C91 for the element sets of C93.  The position is that of the theory at an instant within 150 microseconds of the one asked for.
-/

namespace Sat
open F64 hiding sub
open Spec Spec.R3 Spec.SDP Chain

theorem coord_le (a : Vec3 ℝ) : |a.x| ≤ len a ∧ |a.y| ≤ len a ∧ |a.z| ≤ len a := by
  have h := len_sq a
  have h0 : 0 ≤ len a := Real.sqrt_nonneg _
  refine ⟨?_, ?_, ?_⟩ <;> refine abs_le_of_sq_le_sq ?_ h0 <;> rw [h] <;> nlinarith [sq_nonneg a.x, sq_nonneg a.y, sq_nonneg a.z]

theorem rotZ_length (θ : ℝ) (a : Vec3 ℝ) : len (rotZ θ a) = len a := by
  have := rotZ_len θ a ⟨0, 0, 0⟩
  have z : rotZ θ ⟨0, 0, 0⟩ = ⟨0, 0, 0⟩ := by simp [rotZ]
  rw [z] at this
  simpa [Spec.sub] using this

/-- the day number of a date within a month of the printed epoch -/
theorem day_small {v : Tle} {time : DateTimeUtc} {year nE nD : ℕ} (hday : v.dayE8 ≤ 400 * 10 ^ 8) (y1 : 1957 ≤ year) (y2 : year ≤ 2056)
    (y4 : base.after nE = ⟨year, 1, 1⟩)
    (h1 : |((nD : ℝ) - nE + 1 - (v.dayE8 : ℝ) / 10 ^ 8) * 1440 + time.hour * 60 + time.minute + (time.second : ℝ) / 60| ≤ 43199) : nD ≤ 72000 := by
  have b1 := epoch_days y1 y2 y4
  have hd8 : (v.dayE8 : ℝ) / 10 ^ 8 ≤ 400 := by
    rw [div_le_iff₀ (by positivity)]; exact_mod_cast hday
  have p1 : (0 : ℝ) ≤ time.hour := Nat.cast_nonneg _
  have p2 : (0 : ℝ) ≤ time.minute := Nat.cast_nonneg _
  have p3 : (0 : ℝ) ≤ (time.second : ℝ) / 60 := by positivity
  have b2 : (nE : ℝ) ≤ 60000 := by exact_mod_cast b1
  have b3 := (abs_le.mp h1).2
  have b4 : (nD : ℝ) ≤ 72000 := by linarith
  exact_mod_cast b4

variable [Libm]

omit [Libm] in
/-- the position is small enough for the frame conversions -/
theorem far_bounded {p : Vec3 F64} {X : Vec3 ℝ} (hX : len X ≤ 99500) (hc : p.Close X (1 / 10 ^ 3)) : p.Bounded := by
  obtain ⟨c1, c2, c3⟩ := coord_le X
  have comp : ∀ {x : F64} {r : ℝ}, Close x r (1 / 10 ^ 3) → |r| ≤ len X → Within x 100000 := by
    intro x r a1 a2
    refine ⟨a1.1, ?_⟩
    have e : x.val = (x.val - r) + r := by ring
    rw [e]; exact (abs_add_bd a1.2 (a2.trans hX)).trans (by norm_num)
  exact ⟨comp hc.1 c1, comp hc.2.1 c2, comp hc.2.2 c3⟩

/-- look angles of a distant satellite whose position is known up to a metre -/
theorem far_points (hL : Libm.Faithful) {g : Geodedic F64} {p : Vec3 F64} {θ : F64} (hg : Station g) {X : Vec3 ℝ} (hX : len X ≤ 99500)
    (hc : p.Close X (1 / 10 ^ 3)) (hθ : θ.Fin) {θ' : ℝ} {k : ℤ} (hk : |θ.val - (θ' + k * (2 * Real.pi))| ≤ 4 / 10 ^ 9)
    (h1 : 1.1 ≤ len (sub (rotZ (-θ') X) (geodedic_to_ecf g.exact))) :
    Points (ecf_to_look_angles g (eci_to_ecf p θ)) g.latitude.val g.longitude.val (sub (rotZ (-θ') X) (geodedic_to_ecf g.exact)) (3.3 / 10 ^ 3) := by
  have hbd := far_bounded hX hc
  obtain ⟨f, -⟩ := C83_frames hL p θ hbd hθ
  set w := eci_to_ecf p θ with hw
  rw [(C38_rotations _ _).2] at f
  obtain ⟨c1, c2, c3⟩ := coord_le X
  have s1 : len (sub w.exact (rotZ (-θ.val) p.exact)) ≤ 1.7321 * (1 / 10 ^ 9) := len_le (by norm_num) f.1.2 f.2.1.2 f.2.2.2
  have s2 : len (sub (rotZ (-θ.val) p.exact) (rotZ (-θ.val) X)) ≤ 1.7321 * (1 / 10 ^ 3) := by
    rw [rotZ_len]
    exact len_le (by norm_num) hc.1.2 hc.2.1.2 hc.2.2.2
  have s3 := rotZ_near hk (v := X) (c1.trans hX) (c2.trans hX)
  have s4 := len_sub_le w.exact (rotZ (-θ.val) p.exact) (rotZ (-θ') X)
  have s5 := len_sub_le (rotZ (-θ.val) p.exact) (rotZ (-θ.val) X) (rotZ (-θ') X)
  have s6 : len (sub w.exact (rotZ (-θ') X)) ≤ 3.2 / 10 ^ 3 := by norm_num at s1 s2 s3 s4 s5 ⊢; linarith
  have wb : w.Bounded := by
    have b0 := (abs_le.mp (len_sub_len w.exact (rotZ (-θ') X))).2
    rw [rotZ_length] at b0
    have b1 : len w.exact ≤ 100000 := by norm_num at *; linarith
    obtain ⟨d1, d2, d3⟩ := coord_le w.exact
    exact ⟨⟨f.1.1, d1.trans b1⟩, ⟨f.2.1.1, d2.trans b1⟩, ⟨f.2.2.1, d3.trans b1⟩⟩
  have := points_near hL hg wb (δ := 3.2 / 10 ^ 3) (S := rotZ (-θ') X) (by norm_num) (by norm_num) s6 h1
  exact this.mono (by norm_num) (by norm_num) (lt_of_lt_of_le (by norm_num) h1)

/-- **C94.** For every element set of an ordinary deep-space orbit as printed, every date and time of day within a month of the printed epoch, and every
observer up to 150 km above or below the ellipsoid: the state at the date exists, and the range, elevation and azimuth computed from it, from the sidereal
time of the date and from the observer's coordinates point, up to 3.3 metres, along the line from the observer to the position of the theory at an instant
within 150 microseconds of the one asked for. -/
theorem C94_deep_look_angles_f64 (hL : Libm.Faithful) (l1 l2 : Str) (v : Tle) (h : Printed l1 l2 v) (hpos : v.nddotNeg = false ∨ v.nddotMant = 0)
    (hnd : Normal v.nddotMant) (hb : Normal v.bstarMant) (hl : HighTle v)
    (time : DateTimeUtc) (d : Date) (hd : d.InRange) (hy : time.year = d.year) (hm : time.month = d.month) (hdd : time.day = d.day)
    (hh : time.hour < 24) (hmi : time.minute < 60) (hse : time.second < 60) (g : Geodedic F64) (hg : Station g) (hgh : |g.height.val| ≤ 150) :
    ∃ (s : Satrec F64) (year nE nD : ℕ), twoline2satrec l1 l2 = .ok s ∧
      1957 ≤ year ∧ year ≤ 2056 ∧ (year : ℤ) % 100 = v.year ∧ base.after nE = ⟨year, 1, 1⟩ ∧ base.after nD = d ∧
      let τ : ℝ := ((nD : ℝ) - nE + 1 - (v.dayE8 : ℝ) / 10 ^ 8) * 1440 + time.hour * 60 + time.minute + (time.second : ℝ) / 60
      |τ| ≤ 43199 →
        ∃ (τ' : ℝ) (p : SGP4Result F64) (k : ℕ) (O : Vec3 ℝ), propogate_datetime s time = some (.ok p) ∧ |τ' - τ| ≤ 1 / 400000 ∧ Stands g.exact O ∧
          let m := carriedMean (tleOrbit v) (tleNode v) (2415079.5 + nE - 1 + (v.dayE8 : ℝ) / 10 ^ 8 - 2415020) τ'
          k ≤ 9 ∧ (∀ j < k, 1e-12 ≤ |m.correction (m.newton j)|) ∧ (k = 9 ∨ |m.correction (m.newton k)| < 1e-12) ∧
          Points (ecf_to_look_angles g (eci_to_ecf p.position (gstime_datetime time))) g.latitude.val g.longitude.val
            (sub (rotZ (-siderealAngle nD time) (vec (m.positionKm (m.newton k)))) O) (3.3 / 10 ^ 3) := by
  obtain ⟨s, year, nE, nD, hs, y1, y2, y3, y4, y5, hh'⟩ := deep_sized_at_date hL l1 l2 v h hpos hnd hb hl time d hd hy hm hdd hh hmi hse
  refine ⟨s, year, nE, nD, hs, y1, y2, y3, y4, y5, ?_⟩
  intro τ h1
  obtain ⟨τ', p, k1, k2, k, k3, k4, k5, k6, -, k8, k9, -⟩ := hh' h1
  obtain ⟨g1, -, K, g2⟩ := sidereal_f64 time d hd hy hm hdd hh hmi hse nD y5 (day_small hl.day y1 y2 y4 h1)
  refine ⟨τ', p, k, geodedic_to_ecf g.exact, k1, k2, stands_ecf _, k3, k4, k5, ?_⟩
  refine far_points hL hg k9 k6 g1 g2 ?_
  have hO := stands_near (stands_ecf g.exact)
  have hg' : |g.exact.height| ≤ 150 := hgh
  have := (abs_le.mp (len_sub_len (rotZ (-siderealAngle nD time) (vec ((carriedMean (tleOrbit v) (tleNode v)
    (2415079.5 + nE - 1 + (v.dayE8 : ℝ) / 10 ^ 8 - 2415020) τ').positionKm ((carriedMean (tleOrbit v) (tleNode v)
    (2415079.5 + nE - 1 + (v.dayE8 : ℝ) / 10 ^ 8 - 2415020) τ').newton k)))) (geodedic_to_ecf g.exact))).2
  rw [rotZ_length] at this
  have c : (1.1 : ℝ) ≤ 6569 - (6378.137 + 150) := by norm_num
  exact le_trans (by linarith) this

/-- **C94**, ground track: the position of the theory at that instant, turned by exactly the sidereal angle of the date, has geodetic coordinates `G`
(at least 126 km up), and `eci_to_geodedic` returns, for any such `G`, a place that agrees with it up to 1.2 metres beyond the defect of C40. -/
theorem C94_deep_ground_track_f64 (hL : Libm.Faithful) (l1 l2 : Str) (v : Tle) (h : Printed l1 l2 v) (hpos : v.nddotNeg = false ∨ v.nddotMant = 0)
    (hnd : Normal v.nddotMant) (hb : Normal v.bstarMant) (hl : HighTle v)
    (time : DateTimeUtc) (d : Date) (hd : d.InRange) (hy : time.year = d.year) (hm : time.month = d.month) (hdd : time.day = d.day)
    (hh : time.hour < 24) (hmi : time.minute < 60) (hse : time.second < 60) :
    ∃ (s : Satrec F64) (year nE nD : ℕ), twoline2satrec l1 l2 = .ok s ∧
      1957 ≤ year ∧ year ≤ 2056 ∧ (year : ℤ) % 100 = v.year ∧ base.after nE = ⟨year, 1, 1⟩ ∧ base.after nD = d ∧
      let τ : ℝ := ((nD : ℝ) - nE + 1 - (v.dayE8 : ℝ) / 10 ^ 8) * 1440 + time.hour * 60 + time.minute + (time.second : ℝ) / 60
      |τ| ≤ 43199 →
        ∃ (τ' : ℝ) (p : SGP4Result F64) (k : ℕ) (g : Geodedic F64), propogate_datetime s time = some (.ok p) ∧ |τ' - τ| ≤ 1 / 400000 ∧
          let m := carriedMean (tleOrbit v) (tleNode v) (2415079.5 + nE - 1 + (v.dayE8 : ℝ) / 10 ^ 8 - 2415020) τ'
          k ≤ 9 ∧ (∀ j < k, 1e-12 ≤ |m.correction (m.newton j)|) ∧ (k = 9 ∨ |m.correction (m.newton k)| < 1e-12) ∧
          eci_to_geodedic p.position (gstime_datetime time) = some g ∧
          let O := rotZ (-siderealAngle nD time) (vec (m.positionKm (m.newton k)))
          (∃ G : Geodedic ℝ, Stands G O ∧ |G.latitude| ≤ Real.pi / 2 ∧ |G.longitude| ≤ Real.pi ∧ 126 ≤ G.height) ∧
          ∀ G : Geodedic ℝ, Stands G O → |G.latitude| ≤ Real.pi / 2 → -100 ≤ G.height → Tracks g G O (1.2 / 10 ^ 3) := by
  obtain ⟨s, year, nE, nD, hs, y1, y2, y3, y4, y5, hh'⟩ := deep_sized_at_date hL l1 l2 v h hpos hnd hb hl time d hd hy hm hdd hh hmi hse
  refine ⟨s, year, nE, nD, hs, y1, y2, y3, y4, y5, ?_⟩
  intro τ h1
  obtain ⟨τ', p, k1, k2, k, k3, k4, k5, k6, -, k8, k9, -⟩ := hh' h1
  obtain ⟨g1, g3, K, g2⟩ := sidereal_f64 time d hd hy hm hdd hh hmi hse nD y5 (day_small hl.day y1 y2 y4 h1)
  set m := carriedMean (tleOrbit v) (tleNode v) (2415079.5 + nE - 1 + (v.dayE8 : ℝ) / 10 ^ 8 - 2415020) τ' with hm
  have hbd := far_bounded k9 k6
  set X := vec (m.positionKm (m.newton k)) with hX
  set O := rotZ (-siderealAngle nD time) X with hO
  have hback : rotZ (siderealAngle nD time) O = X := by
    have := Real.sin_sq_add_cos_sq (siderealAngle nD time)
    rw [hO]
    ext
    · simp only [rotZ, Real.sin_neg, Real.cos_neg]; linear_combination X.x * this
    · simp only [rotZ, Real.sin_neg, Real.cos_neg]; linear_combination X.y * this
    · rfl
  obtain ⟨G, s1, s2, s3, s4⟩ := has_place O (D := 6569) (by norm_num) (by
    rw [← len_sq, hO, rotZ_length]
    gcongr)
  have hc : p.position.Close X (1.2 / 10 ^ 3) := ⟨⟨k6.1.1, k6.1.2.trans (by norm_num)⟩, ⟨k6.2.1.1, k6.2.1.2.trans (by norm_num)⟩,
    ⟨k6.2.2.1, k6.2.2.2.trans (by norm_num)⟩⟩
  have key : ∀ G : Geodedic ℝ, Stands G O → |G.latitude| ≤ Real.pi / 2 → -100 ≤ G.height →
      ∃ g, eci_to_geodedic p.position (gstime_datetime time) = some g ∧ Tracks g G O (1.2 / 10 ^ 3) := fun G q1 q2 q3 =>
    track_near hL hbd g1 g3 q1 q2 q3 g2 (by norm_num) (by norm_num) (by norm_num) (by rw [hback]; exact hc)
  obtain ⟨g, t1, -⟩ := key G s1 s2 (by linarith)
  refine ⟨τ', p, k, g, k1, k2, k3, k4, k5, t1, ⟨G, s1, s2, s3, by linarith⟩, fun G' q1 q2 q3 => ?_⟩
  obtain ⟨g', t2, t3⟩ := key G' q1 q2 q3
  rw [t1] at t2
  injection t2 with t2
  rw [t2]; exact t3

/-- The navigation satellite of `Props/F64DeepText.lean` on 1997 October 1 at 12:00, seen from latitude 0.75 rad, longitude 0, 500 m above the
ellipsoid. -/
theorem nav_sight (hL : Libm.Faithful) (time : DateTimeUtc) (h1 : time.year = 1997) (h2 : time.month = 10) (h3 : time.day = 1) (h4 : time.hour = 12)
    (h5 : time.minute = 0) (h6 : time.second = 0) :
    ∃ (s : Satrec F64) (p : SGP4Result F64) (L : Vec3 ℝ), twoline2satrec navLine1 navLine2 = .ok s ∧ propogate_datetime s time = some (.ok p) ∧
      Points (ecf_to_look_angles ⟨0.0, 0.75, 0.5⟩ (eci_to_ecf p.position (gstime_datetime time))) (3 / 4) 0 L (3.3 / 10 ^ 3) := by
  have w1 := dyadic_within (m := 0) (k := 1) 0 0 0 (B := 100000) (by norm_num) (by norm_num) (by norm_num) (by norm_num) (by norm_num)
  have w2 := dyadic_within (m := 75) (k := 2) (3 / 4) 3 2 (B := 1) (by norm_num) (by norm_num) (by norm_num) (by norm_num) (by norm_num [abs_of_pos])
  have w3 := dyadic_within (m := 5) (k := 1) (1 / 2) 1 1 (B := 10000) (by norm_num) (by norm_num) (by norm_num) (by norm_num) (by norm_num [abs_of_pos])
  obtain ⟨s, year, nE, nD, hs, y1, y2, y3, y4, y5, hh⟩ := C94_deep_look_angles_f64 hL _ _ _ nav_printed (Or.inl rfl) (Or.inl rfl) (Or.inr (by decide))
    nav_high time ⟨1997, 10, 1⟩ ⟨by decide, by unfold Date.before base; decide, by unfold Date.before; decide⟩ h1 h2 h3
    (by omega) (by omega) (by omega) (⟨0.0, 0.75, 0.5⟩ : Geodedic F64) ⟨w2.1.1, w1.1.1, w3.1⟩ (by
      rw [show (⟨0.0, 0.75, 0.5⟩ : Geodedic F64).height.val = 1 / 2 from w3.2]; norm_num [abs_of_pos])
  have ey : year = 1997 := by
    have e : (navTle.year : ℤ) = 97 := rfl
    rw [e] at y3; omega
  have e1 := (serial_after nE).2.2
  have e2 := (serial_after nD).2.2
  rw [y4, ey] at e1
  rw [y5] at e2
  have e3 : serial ⟨1997, 10, 1⟩ = serial ⟨1997, 1, 1⟩ + 273 := by decide +kernel
  have e4 : (nD : ℝ) = nE + 273 := by exact_mod_cast (by omega : nD = nE + 273)
  have e5 : ((nD : ℝ) - nE + 1 - (navTle.dayE8 : ℝ) / 10 ^ 8) * 1440 + time.hour * 60 + time.minute + (time.second : ℝ) / 60 =
      (274 - 264.51782528) * 1440 + 12 * 60 := by
    rw [e4, h4, h5, h6, show (navTle.dayE8 : ℝ) = 26451782528 by unfold navTle; norm_num]; norm_num
  dsimp only at hh
  rw [e5] at hh
  obtain ⟨τ', p, k, O, k1, -, -, -, -, -, k5⟩ := hh (by norm_num [abs_of_pos])
  rw [show (⟨0.0, 0.75, 0.5⟩ : Geodedic F64).latitude.val = 3 / 4 from w2.2, show (⟨0.0, 0.75, 0.5⟩ : Geodedic F64).longitude.val = 0 from w1.2] at k5
  exact ⟨s, p, _, hs, k1, k5⟩

end Sat
