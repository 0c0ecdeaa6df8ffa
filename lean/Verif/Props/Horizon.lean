import Verif.Props.F64DeepSight

/-!
# Above the horizon means in sight

C103: a satellite with an elevation that is not negative can be seen: the straight line to it does not pass through the Earth.
-/

namespace Sat
open Spec

/-- the point is below the surface of the reference ellipsoid -/
def Spec.Underground (p : Vec3 ℝ) : Prop := (p.x ^ 2 + p.y ^ 2) / equatorial ^ 2 + p.z ^ 2 / polar ^ 2 < 1

/-- no point of the straight line from `O` to `X` is below the surface -/
def Spec.InSight (O X : Vec3 ℝ) : Prop := ∀ s, 0 ≤ s → s ≤ 1 → ¬ Underground (along O s (sub X O))

/-- the defining quadratic form -/
noncomputable def ellForm (w : Vec3 ℝ) : ℝ := (w.x ^ 2 + w.y ^ 2) / equatorial ^ 2 + w.z ^ 2 / polar ^ 2

theorem ellForm_nonneg (w : Vec3 ℝ) : 0 ≤ ellForm w := by unfold ellForm; positivity

theorem ellForm_from {P : Vec3 ℝ} (hP : OnEllipsoid P) (w : Vec3 ℝ) :
    ellForm ⟨P.x + w.x, P.y + w.y, P.z + w.z⟩ = 1 + dot (ellipsoidGradient P) w + ellForm w := by
  unfold OnEllipsoid at hP
  rw [← hP]
  unfold ellForm dot ellipsoidGradient
  ring

theorem ellForm_pos {P w : Vec3 ℝ} (h : dot (ellipsoidGradient P) w ≠ 0) : 0 < ellForm w := by
  have ha : (0 : ℝ) < equatorial ^ 2 := by unfold equatorial; positivity
  have hb : (0 : ℝ) < polar ^ 2 := by unfold polar; positivity
  rcases (ellForm_nonneg w).eq_or_lt with h0 | h0
  · exfalso
    have h1 : (w.x ^ 2 + w.y ^ 2) / equatorial ^ 2 = 0 := by
      have : 0 ≤ (w.x ^ 2 + w.y ^ 2) / equatorial ^ 2 := by positivity
      have : 0 ≤ w.z ^ 2 / polar ^ 2 := by positivity
      unfold ellForm at h0; linarith
    have h2 : w.z ^ 2 / polar ^ 2 = 0 := by unfold ellForm at h0; linarith
    rw [div_eq_zero_iff] at h1 h2
    have h1 : w.x ^ 2 + w.y ^ 2 = 0 := h1.resolve_right ha.ne'
    have h2 : w.z ^ 2 = 0 := h2.resolve_right hb.ne'
    have hx : w.x = 0 := by nlinarith [sq_nonneg w.x, sq_nonneg w.y]
    have hy : w.y = 0 := by nlinarith [sq_nonneg w.x, sq_nonneg w.y]
    have hz : w.z = 0 := by nlinarith [sq_nonneg w.z]
    apply h
    unfold dot; rw [hx, hy, hz]; ring
  · exact h0

/-- the plane of the horizon of an observer who is not below the ground does not enter the Earth -/
theorem in_sight {g : Geodedic ℝ} {O X : Vec3 ℝ} (hO : Stands g O) (hh : 0 ≤ g.height) (hz : 0 ≤ dot (zenith g.latitude g.longitude) (sub X O)) :
    InSight O X := by
  obtain ⟨P, hP, ⟨c, hc, e⟩, rfl⟩ := hO
  intro s h0 _ hu
  set n := zenith g.latitude g.longitude with hn
  set L := sub X (along P g.height n) with hL
  have hnn : dot n n = 1 := (C39_height_along_normal g.longitude g.latitude 0).2.1
  have key := ellForm_from hP ⟨g.height * n.x + s * L.x, g.height * n.y + s * L.y, g.height * n.z + s * L.z⟩
  have hg : 0 ≤ dot (ellipsoidGradient P) ⟨g.height * n.x + s * L.x, g.height * n.y + s * L.y, g.height * n.z + s * L.z⟩ := by
    have h1 : 0 ≤ c * dot (ellipsoidGradient P) ⟨g.height * n.x + s * L.x, g.height * n.y + s * L.y, g.height * n.z + s * L.z⟩ := by
      have : c * dot (ellipsoidGradient P) ⟨g.height * n.x + s * L.x, g.height * n.y + s * L.y, g.height * n.z + s * L.z⟩ =
          dot n ⟨g.height * n.x + s * L.x, g.height * n.y + s * L.y, g.height * n.z + s * L.z⟩ := by
        rw [e]; simp only [dot, scale]; ring
      rw [this]
      have e2 : dot n ⟨g.height * n.x + s * L.x, g.height * n.y + s * L.y, g.height * n.z + s * L.z⟩ = g.height * dot n n + s * dot n L := by
        simp only [dot]; ring
      rw [e2, hnn]
      exact add_nonneg (by linarith) (mul_nonneg h0 hz)
    exact nonneg_of_mul_nonneg_right h1 hc
  have h3 := ellForm_nonneg ⟨g.height * n.x + s * L.x, g.height * n.y + s * L.y, g.height * n.z + s * L.z⟩
  have hu' : ellForm (along (along P g.height n) s L) < 1 := hu
  have e4 : along (along P g.height n) s L =
      ⟨P.x + (g.height * n.x + s * L.x), P.y + (g.height * n.y + s * L.y), P.z + (g.height * n.z + s * L.z)⟩ := by
    unfold along; congr 1 <;> ring
  rw [e4] at hu'
  change ellForm ⟨P.x + (g.height * n.x + s * L.x), P.y + (g.height * n.y + s * L.y), P.z + (g.height * n.z + s * L.z)⟩ = _ at key
  linarith

/-- below the plane of the horizon of an observer on the ground, the line enters the Earth -/
theorem not_in_sight {g : Geodedic ℝ} {O X : Vec3 ℝ} (hO : Stands g O) (hh : g.height = 0) (hz : dot (zenith g.latitude g.longitude) (sub X O) < 0) :
    ¬ InSight O X := by
  obtain ⟨P, hP, ⟨c, hc, e⟩, rfl⟩ := hO
  have eO : along P g.height (zenith g.latitude g.longitude) = P := by rw [hh]; unfold along; simp
  rw [eO] at hz ⊢
  set L := sub X P with hL
  have hg : dot (ellipsoidGradient P) L < 0 := by
    have : dot (zenith g.latitude g.longitude) L = c * dot (ellipsoidGradient P) L := by
      rw [e]; simp only [dot, scale]; ring
    rw [this] at hz
    by_contra hc'
    exact absurd (mul_nonneg hc.le (not_lt.mp hc')) (not_le.mpr hz)
  have hq := ellForm_pos hg.ne
  set D := dot (ellipsoidGradient P) L with hD
  set q := ellForm L with hqd
  have hs0 : 0 < -D / (-D + q) := div_pos (by linarith) (by linarith)
  have hs1 : -D / (-D + q) ≤ 1 := by rw [div_le_one (by linarith)]; linarith
  intro h
  have hu := h (-D / (-D + q)) hs0.le hs1
  apply hu
  set s := -D / (-D + q) with hs
  have key := ellForm_from hP ⟨s * L.x, s * L.y, s * L.z⟩
  have e1 : dot (ellipsoidGradient P) ⟨s * L.x, s * L.y, s * L.z⟩ = s * D := by rw [hD]; simp only [dot]; ring
  have e2 : ellForm ⟨s * L.x, s * L.y, s * L.z⟩ = s ^ 2 * q := by rw [hqd]; unfold ellForm; ring
  rw [e1, e2] at key
  show ellForm (along P s L) < 1
  have e3 : along P s L = ⟨P.x + s * L.x, P.y + s * L.y, P.z + s * L.z⟩ := rfl
  rw [e3, key]
  have hsq : s * q < -D := by
    rw [hs, div_mul_eq_mul_div, div_lt_iff₀ (by linarith)]
    nlinarith [mul_pos (neg_pos.mpr hg) (neg_pos.mpr hg)]
  nlinarith [mul_lt_mul_of_pos_left hsq hs0]

/-- **C103.** For an observer at or above the ground, a satellite with an elevation that is not negative is in sight; for an observer on the ground, a satellite with a negative elevation is hidden by the Earth. -/
theorem C103_in_sight (obs : Geodedic ℝ) (sat : Vec3 ℝ) :
    (0 ≤ obs.height → 0 ≤ (ecf_to_look_angles obs sat).elevation → InSight (geodedic_to_ecf obs) sat) ∧
    (obs.height = 0 → (InSight (geodedic_to_ecf obs) sat ↔ 0 ≤ (ecf_to_look_angles obs sat).elevation)) := by
  obtain ⟨h1, h2, -, h3, -, -⟩ := C43_ecf_look_angles obs sat
  have hr : 0 ≤ (ecf_to_look_angles obs sat).range := by rw [h1]; exact Real.sqrt_nonneg _
  have pos : 0 ≤ (ecf_to_look_angles obs sat).elevation → 0 ≤ dot (zenith obs.latitude obs.longitude) (sub sat (geodedic_to_ecf obs)) := by
    intro he
    rw [h3]
    exact mul_nonneg hr (Real.sin_nonneg_of_nonneg_of_le_pi he (by linarith [h2.2, Real.pi_pos]))
  refine ⟨fun hh he => in_sight (stands_ecf obs) hh (pos he), fun hh => ⟨fun hi => ?_, fun he => in_sight (stands_ecf obs) hh.ge (pos he)⟩⟩
  by_contra hneg
  rw [not_le] at hneg
  have hs : Real.sin (ecf_to_look_angles obs sat).elevation < 0 := Real.sin_neg_of_neg_of_neg_pi_lt hneg (by linarith [h2.1, Real.pi_pos])
  rcases hr.eq_or_lt with h0 | h0
  · -- at distance zero the elevation is the arcsine of 0 / 0 = 0
    have e0 : (topocentric_to_look_angles (topocentric obs sat)).range = 0 := h0.symm
    have : (ecf_to_look_angles obs sat).elevation = 0 := by
      show Real.arcsin ((topocentric obs sat).top_z / (topocentric_to_look_angles (topocentric obs sat)).range) = 0
      rw [e0, div_zero, Real.arcsin_zero]
    linarith
  · exact not_in_sight (stands_ecf obs) hh (by rw [h3]; exact mul_neg_of_pos_of_neg h0 hs) hi

/-- **C103**, two ends of a diameter: no satellite is above the horizon (or on it) of both of two observers at or above the ground at opposite places of the Earth. -/
theorem C103_antipodes (l φ h h' : ℝ) (hh : 0 ≤ h) (hh' : 0 ≤ h') (sat : Vec3 ℝ) :
    ¬ (0 ≤ (ecf_to_look_angles ⟨l, φ, h⟩ sat).elevation ∧ 0 ≤ (ecf_to_look_angles ⟨l + Real.pi, -φ, h'⟩ sat).elevation) := by
  rintro ⟨h1, h2⟩
  have pos : ∀ obs : Geodedic ℝ, 0 ≤ (ecf_to_look_angles obs sat).elevation → 0 ≤ dot (zenith obs.latitude obs.longitude) (sub sat (geodedic_to_ecf obs)) := by
    intro obs he
    obtain ⟨r1, r2, -, r3, -, -⟩ := C43_ecf_look_angles obs sat
    rw [r3, r1]
    exact mul_nonneg (Real.sqrt_nonneg _) (Real.sin_nonneg_of_nonneg_of_le_pi he (by linarith [r2.2, Real.pi_pos]))
  have a := pos _ h1
  have b := pos _ h2
  rw [geodedic_to_ecf_real] at a b
  have hw := one_sub_pos (Real.sin φ) (Real.sin_sq_le_one φ)
  have hN : 0 < primeVertical φ := div_pos (by unfold equatorial; norm_num) (Real.sqrt_pos.mpr (lt_trans (by norm_num) hw))
  have eN : primeVertical (-φ) = primeVertical φ := by unfold primeVertical; rw [Real.sin_neg, neg_sq]
  simp only [dot, zenith, sub, Real.sin_neg, Real.cos_neg, Real.cos_add_pi, Real.sin_add_pi, eN] at a b
  have e1 := Real.sin_sq_add_cos_sq l
  have e2 := Real.sin_sq_add_cos_sq φ
  have hE : (ellE2 : ℝ) * Real.sin φ ^ 2 < 1 := by linarith
  generalize primeVertical φ = N at *
  generalize Real.sin l = t at *
  generalize Real.cos l = u at *
  generalize (ellE2 : ℝ) = ε at *
  generalize Real.sin φ = s at *
  generalize Real.cos φ = c at *
  have hsum : 0 ≤ -(2 * N * (1 - ε * s ^ 2) + h + h') := by
    have : -(2 * N * (1 - ε * s ^ 2) + h + h') = (c * u * (sat.x - (N + h) * c * u) + c * t * (sat.y - (N + h) * c * t) + s * (sat.z - (N * (1 - ε) + h) * s)) +
        (c * -u * (sat.x - (N + h') * c * -u) + c * -t * (sat.y - (N + h') * c * -t) + -s * (sat.z - (N * (1 - ε) + h') * -s)) := by
      linear_combination (c ^ 2 * (2 * N + h + h')) * e1 + (2 * N + h + h') * e2
    rw [this]
    exact add_nonneg a b
  have := mul_pos hN (by linarith : 0 < 1 - ε * s ^ 2)
  nlinarith

/-- A satellite 600 km straight up is in sight from everywhere, and hidden from the opposite side. -/
example (l φ : ℝ) : InSight (geodedic_to_ecf ⟨l, φ, 0⟩) (geodedic_to_ecf ⟨l, φ, 600⟩) ∧
    ¬ InSight (geodedic_to_ecf ⟨l + Real.pi, -φ, 0⟩) (geodedic_to_ecf ⟨l, φ, 600⟩) := by
  have h := C42_overhead ⟨l, φ, 0⟩ 600
  have he : (ecf_to_look_angles ⟨l, φ, 0⟩ (geodedic_to_ecf ⟨l, φ, 600⟩)).elevation = Real.pi / 2 := by
    rw [ecf_to_look_angles]
    have e : (⟨l, φ, 600⟩ : Geodedic ℝ) = { (⟨l, φ, 0⟩ : Geodedic ℝ) with height := 0 + 600 } := by norm_num
    rw [e, h]
    simp only [topocentric_to_look_angles, real_sqrt, real_powi2, real_asin]
    rw [show Real.sqrt ((0 : ℝ) ^ 2 + 0 ^ 2 + 600 ^ 2) = 600 by rw [show (0 : ℝ) ^ 2 + 0 ^ 2 + 600 ^ 2 = 600 ^ 2 by norm_num]; exact Real.sqrt_sq (by norm_num), div_self (by norm_num), Real.arcsin_one]
  have hp := Real.pi_pos
  refine ⟨(C103_in_sight _ _).1 le_rfl (by rw [he]; linarith), fun hs => ?_⟩
  exact C103_antipodes l φ 0 0 le_rfl le_rfl _ ⟨by rw [he]; linarith, ((C103_in_sight _ _).2 rfl).1 hs⟩

/-- Points that are given by look angles to within 8 metres: the sign of the elevation is right when it is not within 1/2000 of zero. -/
theorem points_sign {b : Bearing F64} {φ l : ℝ} {L : Vec3 ℝ} (h : Points b φ l L (8 / 10 ^ 3)) (hL : 39.9 ≤ len L) :
    (1 / 2000 ≤ b.elevation.val → 0 < dot (zenith φ l) L) ∧ (b.elevation.val ≤ -(1 / 2000) → dot (zenith φ l) L < 0) := by
  obtain ⟨-, -, h1, h2, -⟩ := h
  have h0 : 0 < len L := lt_of_lt_of_le (by norm_num) hL
  have hb : 2 * (8 / 10 ^ 3) / len L ≤ 0.00041 := by
    rw [div_le_iff₀ h0]; norm_num at hL ⊢; linarith
  have h3 := abs_le.mp (h2.trans hb)
  have h4 := abs_le.mp h1
  have hp := Real.pi_gt_three
  have hs : (0.00049 : ℝ) ≤ Real.sin (1 / 2000) := by
    have := Real.sin_gt_sub_cube (x := 1 / 2000) (by norm_num)
    norm_num at this ⊢; linarith
  constructor
  · intro he
    have := Real.sin_le_sin_of_le_of_le_pi_div_two (x := 1 / 2000) (by linarith) h4.2 he
    have hq : 0 < dot (zenith φ l) L / len L := by norm_num at *; linarith
    rcases div_pos_iff.mp hq with ⟨a, -⟩ | ⟨-, a⟩
    · exact a
    · linarith
  · intro he
    have := Real.sin_le_sin_of_le_of_le_pi_div_two (x := 1 / 2000) (y := -b.elevation.val) (by linarith) (by linarith) (by linarith)
    rw [Real.sin_neg] at this
    have hq : dot (zenith φ l) L / len L < 0 := by norm_num at *; linarith
    rcases div_neg_iff.mp hq with ⟨-, a⟩ | ⟨a, -⟩
    · linarith
    · exact a

variable [Libm]

/-- **C103**, from printed text, calendar date and observer, in doubles: when the elevation that the program computes is at least 1/2000 radian (0.03 degrees), for an observer at or above the ground and at least 100 km below the
perigee, then the straight line from the observer to the satellite, where the published theory has it for the printed elements at that instant, does not pass through the Earth; for an observer on the ground and an elevation of at most
-1/2000 it does. -/
theorem C103_in_sight_f64 (hL : Libm.Faithful) (l1 l2 : Str) (v : Tle) (h : Printed l1 l2 v) (hpos : v.nddotNeg = false ∨ v.nddotMant = 0)
    (hnd : Normal v.nddotMant) (hb : Normal v.bstarMant) (hday : v.dayE8 ≤ 400 * 10 ^ 8) (hl : LowTle v 0)
    (time : DateTimeUtc) (d : Date) (hd : d.InRange) (hy : time.year = d.year) (hm : time.month = d.month) (hdd : time.day = d.day)
    (hh : time.hour < 24) (hmi : time.minute < 60) (hse : time.second < 60) (g : Geodedic F64) (hg : Station g)
    (hgh : |g.height.val| + 100 ≤ 6378.137 * ((tleOrbit v).a * (1 - tleEcc v) - 1)) :
    ∃ (s : Satrec F64) (year nE nD : ℕ), twoline2satrec l1 l2 = .ok s ∧
      1957 ≤ year ∧ year ≤ 2056 ∧ (year : ℤ) % 100 = v.year ∧ base.after nE = ⟨year, 1, 1⟩ ∧ base.after nD = d ∧
      let τ : ℝ := ((nD : ℝ) - nE + 1 - (v.dayE8 : ℝ) / 10 ^ 8) * 1440 + time.hour * 60 + time.minute + (time.second : ℝ) / 60
      |τ| ≤ 43199 → |tleDrag v * τ| * tleLow v ^ 5 ≤ 1.99 →
        let m := (tleOrbit v).mean (tleNode v) τ
        ∃ (p : SGP4Result F64) (E : ℝ) (O : Vec3 ℝ), propogate_datetime s time = some (.ok p) ∧
          m.kepler E = 0 ∧ (∀ E', m.kepler E' = 0 → E' = E) ∧ Stands g.exact O ∧
          let el := (ecf_to_look_angles g (eci_to_ecf p.position (gstime_datetime time))).elevation
          let X := rotZ (-siderealAngle nD time) (vec (m.positionKm E))
          (0 ≤ g.height.val → 1 / 2000 ≤ el.val → InSight O X) ∧ (g.height.val = 0 → el.val ≤ -(1 / 2000) → ¬ InSight O X) := by
  obtain ⟨s, year, nE, nD, hs, y1, y2, y3, y4, y5, hh'⟩ := C90_look_angles_f64 hL l1 l2 v h hpos hnd hb hday hl time d hd hy hm hdd hh hmi hse g hg
  refine ⟨s, year, nE, nD, hs, y1, y2, y3, y4, y5, ?_⟩
  intro τ h1 h2 m
  obtain ⟨p, E, O, k1, k2, k3, k4, k5⟩ := hh' h1 h2
  refine ⟨p, E, O, k1, k2, k3, k4, ?_⟩
  have hQ : Quiet (tleOrbit v) τ := quiet_low hL h hpos hnd hb { hl with time := h1.trans (by norm_num), drag := h2.trans (by norm_num) }
  have hX := position_high hQ (tleNode v) E
  have hO := stands_near k4
  have hg' : |g.exact.height| + 100 ≤ 6378.137 * ((tleOrbit v).a * (1 - tleEcc v) - 1) := hgh
  have e : len (rotZ (-siderealAngle nD time) (vec (m.positionKm E))) = len (vec (m.positionKm E)) := by
    have := rotZ_len (-siderealAngle nD time) (vec (m.positionKm E)) ⟨0, 0, 0⟩
    have z : rotZ (-siderealAngle nD time) ⟨0, 0, 0⟩ = ⟨0, 0, 0⟩ := by simp [rotZ]
    rw [z] at this
    simpa [Spec.sub] using this
  have := (abs_le.mp (len_sub_len (rotZ (-siderealAngle nD time) (vec (m.positionKm E))) O)).2
  rw [e] at this
  have hX' : 6378.137 * ((tleOrbit v).a * (1 - tleEcc v)) - 60 ≤ len (vec (m.positionKm E)) := hX
  have hlen : 39.9 ≤ len (sub (rotZ (-siderealAngle nD time) (vec (m.positionKm E))) O) := by
    refine le_trans ?_ this
    norm_num at hX' hg' hO ⊢; linarith
  obtain ⟨q1, q2⟩ := points_sign (k5 (le_trans (by norm_num) hlen)) hlen
  exact ⟨fun a b => in_sight k4 a (q1 b).le, fun a b => not_in_sight k4 a (q2 b)⟩

open Spec.SDP in
/-- **C103**, deep-space satellites (C94): a computed elevation of at least 1/2000 radian means that the satellite is in sight from an observer between the ground and 150 km up, and one of at most -1/2000 that it is hidden from an
observer on the ground. -/
theorem C103_deep_in_sight_f64 (hL : Libm.Faithful) (l1 l2 : Str) (v : Tle) (h : Printed l1 l2 v) (hpos : v.nddotNeg = false ∨ v.nddotMant = 0)
    (hnd : Normal v.nddotMant) (hb : Normal v.bstarMant) (hl : HighTle v)
    (time : DateTimeUtc) (d : Date) (hd : d.InRange) (hy : time.year = d.year) (hm : time.month = d.month) (hdd : time.day = d.day)
    (hh : time.hour < 24) (hmi : time.minute < 60) (hse : time.second < 60) (g : Geodedic F64) (hg : Station g) (hgh : |g.height.val| ≤ 150) :
    ∃ (s : Satrec F64) (year nE nD : ℕ), twoline2satrec l1 l2 = .ok s ∧
      1957 ≤ year ∧ year ≤ 2056 ∧ (year : ℤ) % 100 = v.year ∧ base.after nE = ⟨year, 1, 1⟩ ∧ base.after nD = d ∧
      let τ : ℝ := ((nD : ℝ) - nE + 1 - (v.dayE8 : ℝ) / 10 ^ 8) * 1440 + time.hour * 60 + time.minute + (time.second : ℝ) / 60
      |τ| ≤ 43199 →
        ∃ (τ' : ℝ) (p : SGP4Result F64) (k : ℕ) (O : Vec3 ℝ), propogate_datetime s time = some (.ok p) ∧ |τ' - τ| ≤ 1 / 400000 ∧ Stands g.exact O ∧
          let m := carriedMean (tleOrbit v) (tleNode v) (2415079.5 + nE - 1 + (v.dayE8 : ℝ) / 10 ^ 8 - 2415020) τ'
          k ≤ 9 ∧ (∀ j < k, 1e-12 ≤ |m.correction (m.newton j)|) ∧ (k = 9 ∨ |m.correction (m.newton k)| < 1e-12) ∧
          let el := (ecf_to_look_angles g (eci_to_ecf p.position (gstime_datetime time))).elevation
          let X := rotZ (-siderealAngle nD time) (vec (m.positionKm (m.newton k)))
          (0 ≤ g.height.val → 1 / 2000 ≤ el.val → InSight O X) ∧ (g.height.val = 0 → el.val ≤ -(1 / 2000) → ¬ InSight O X) := by
  obtain ⟨s, year, nE, nD, hs, y1, y2, y3, y4, y5, hh'⟩ := deep_sized_at_date hL l1 l2 v h hpos hnd hb hl time d hd hy hm hdd hh hmi hse
  refine ⟨s, year, nE, nD, hs, y1, y2, y3, y4, y5, ?_⟩
  intro τ h1
  obtain ⟨τ', p, k1, k2, k, k3, k4, k5, k6, -, k8, k9, -⟩ := hh' h1
  obtain ⟨g1, -, K, g2⟩ := sidereal_f64 time d hd hy hm hdd hh hmi hse nD y5 (day_small hl.day y1 y2 y4 h1)
  refine ⟨τ', p, k, geodedic_to_ecf g.exact, k1, k2, stands_ecf _, k3, k4, k5, ?_⟩
  have hO := stands_near (stands_ecf g.exact)
  have hg' : |g.exact.height| ≤ 150 := hgh
  have := (abs_le.mp (len_sub_len (rotZ (-siderealAngle nD time) (vec ((carriedMean (tleOrbit v) (tleNode v)
    (2415079.5 + nE - 1 + (v.dayE8 : ℝ) / 10 ^ 8 - 2415020) τ').positionKm ((carriedMean (tleOrbit v) (tleNode v)
    (2415079.5 + nE - 1 + (v.dayE8 : ℝ) / 10 ^ 8 - 2415020) τ').newton k)))) (geodedic_to_ecf g.exact))).2
  rw [rotZ_length] at this
  have hlen := le_trans (by
    have c : (39.9 : ℝ) ≤ 6569 - (6378.137 + 150) := by norm_num
    linarith : (39.9 : ℝ) ≤ _) this
  have hP := (far_points hL hg k9 k6 g1 g2 (le_trans (by norm_num) hlen)).mono (by norm_num) (show (_ : ℝ) ≤ 8 / 10 ^ 3 by norm_num) (lt_of_lt_of_le (by norm_num) hlen)
  obtain ⟨q1, q2⟩ := points_sign hP hlen
  exact ⟨fun a b => in_sight (stands_ecf _) a (q1 b).le, fun a b => not_in_sight (stands_ecf _) a (q2 b)⟩

end Sat
