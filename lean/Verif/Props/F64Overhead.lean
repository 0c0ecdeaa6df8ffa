import Verif.Props.F64Track
import Verif.Props.Horizon
import Verif.Props.F64DeepSight

/-!
# The satellite is overhead at the point below it

C107: the conversion to geodetic coordinates and the look angles agree.
-/

namespace Sat
open F64 hiding sub
open Spec Spec.R3 Spec.SDP Chain

/-! ## The meridian -/

theorem hasDerivAt_primeVertical (φ : ℝ) :
    HasDerivAt primeVertical (primeVertical φ * ellE2 * Real.sin φ * Real.cos φ / (1 - ellE2 * Real.sin φ ^ 2)) φ := by
  have hw := one_sub_pos (Real.sin φ) (Real.sin_sq_le_one φ)
  have hw0 : 1 - ellE2 * Real.sin φ ^ 2 ≠ 0 := by linarith
  have hs0 : Real.sqrt (1 - ellE2 * Real.sin φ ^ 2) ≠ 0 := (Real.sqrt_pos.mpr (by linarith)).ne'
  have h1 : HasDerivAt (fun x => 1 - ellE2 * Real.sin x ^ 2) (-(ellE2 * (2 * Real.sin φ * Real.cos φ))) φ := by
    have := (((Real.hasDerivAt_sin φ).pow 2).const_mul (ellE2 : ℝ)).const_sub 1
    exact this.congr_deriv (by norm_num)
  have h2 := (h1.sqrt hw0).inv hs0 |>.const_mul equatorial
  have e : (fun y => equatorial * (fun x => Real.sqrt (1 - ellE2 * Real.sin x ^ 2))⁻¹ y) = primeVertical := by
    funext y; simp [primeVertical, div_eq_mul_inv]
  rw [e] at h2
  refine h2.congr_deriv ?_
  unfold primeVertical
  rw [Real.sq_sqrt (by linarith)]
  field_simp

/-- along a meridian, at height `h`, a coordinate changes by at most the radius of curvature times the change of latitude -/
theorem meridian {α β h : ℝ} (hh : 0 ≤ h) (hαβ : α ^ 2 + β ^ 2 ≤ 1) (φ φ' : ℝ) :
    |(α * ((primeVertical φ + h) * Real.cos φ) + β * ((primeVertical φ * (1 - ellE2) + h) * Real.sin φ)) -
      (α * ((primeVertical φ' + h) * Real.cos φ') + β * ((primeVertical φ' * (1 - ellE2) + h) * Real.sin φ'))| ≤ (6400 + h) * |φ - φ'| := by
  set f : ℝ → ℝ := fun φ => α * ((primeVertical φ + h) * Real.cos φ) + β * ((primeVertical φ * (1 - ellE2) + h) * Real.sin φ) with hf
  have e0 := ellE2_pos
  have e1 := ellE2_le
  have hd : ∀ x, HasDerivAt f ((primeVertical x * (1 - ellE2) / (1 - ellE2 * Real.sin x ^ 2) + h) * (β * Real.cos x - α * Real.sin x)) x := by
    intro x
    have hN := hasDerivAt_primeVertical x
    have h1 := ((hN.add_const h).mul (Real.hasDerivAt_cos x)).const_mul α
    have h2 := (((hN.mul_const (1 - (ellE2 : ℝ))).add_const h).mul (Real.hasDerivAt_sin x)).const_mul β
    refine (h1.add h2).congr_deriv ?_
    have hw := one_sub_pos (Real.sin x) (Real.sin_sq_le_one x)
    have hw0 : 1 - ellE2 * Real.sin x ^ 2 ≠ 0 := by linarith
    have hc : Real.cos x ^ 2 = 1 - Real.sin x ^ 2 := Real.cos_sq' x
    generalize primeVertical x = N
    generalize Real.sin x = s at *
    generalize Real.cos x = c at *
    generalize (ellE2 : ℝ) = e at *
    field_simp
    have hc3 : c ^ 3 = c * (1 - s ^ 2) := by rw [← hc]; ring
    linear_combination (α * N * e * s) * hc
  have hb : ∀ x, |(primeVertical x * (1 - ellE2) / (1 - ellE2 * Real.sin x ^ 2) + h) * (β * Real.cos x - α * Real.sin x)| ≤ 6400 + h := by
    intro x
    obtain ⟨n1, n2⟩ := primeVertical_bounds x
    have hw := one_sub_pos (Real.sin x) (Real.sin_sq_le_one x)
    have hM0 : 0 ≤ primeVertical x * (1 - ellE2) / (1 - ellE2 * Real.sin x ^ 2) := by
      apply div_nonneg (mul_nonneg (by linarith) (by linarith)) (by linarith)
    have hM : primeVertical x * (1 - ellE2) / (1 - ellE2 * Real.sin x ^ 2) ≤ 6400 := by
      rw [div_le_iff₀ (by linarith)]
      refine mul_le_mul (by linarith) ?_ (by linarith) (by norm_num)
      nlinarith [Real.sin_sq_le_one x]
    have hc : |β * Real.cos x - α * Real.sin x| ≤ 1 := by
      refine abs_le_of_sq_le_sq ?_ (by norm_num)
      nlinarith [Real.sin_sq_add_cos_sq x, sq_nonneg (β * Real.sin x + α * Real.cos x)]
    rw [abs_mul, abs_of_nonneg (by linarith)]
    calc _ ≤ (6400 + h) * 1 := mul_le_mul (by linarith) hc (abs_nonneg _) (by linarith)
      _ = _ := mul_one _
  have := Convex.norm_image_sub_le_of_norm_hasDerivWithin_le (f := f) (s := Set.univ) (C := 6400 + h) (x := φ') (y := φ)
    (fun z _ => (hd z).hasDerivWithinAt) (fun z _ => hb z) convex_univ (Set.mem_univ _) (Set.mem_univ _)
  exact this

/-- The satellite at the geodetic coordinates `G`, seen from a point of the ellipsoid at nearly the same latitude and longitude. -/
theorem seen_from_below {G : Geodedic ℝ} {φ l : ℝ} (hG : 0 ≤ G.height) (hlat : |G.latitude| ≤ Real.pi / 2) :
    let R := (primeVertical G.latitude + G.height) * Real.cos G.latitude
    let L := sub (geodedic_to_ecf G) (geodedic_to_ecf ⟨l, φ, 0⟩)
    let X := (6400 + G.height) * |G.latitude - φ| + R * (1 - Real.cos (G.longitude - l))
    |dot (south φ l) L| ≤ X ∧ |dot (zenith φ l) L - G.height| ≤ X ∧ dot (east l) L = R * Real.sin (G.longitude - l) := by
  intro R L X
  have hcos : 0 ≤ Real.cos G.latitude := Real.cos_nonneg_of_mem_Icc ⟨by linarith [(abs_le.mp hlat).1], (abs_le.mp hlat).2⟩
  have hR : 0 ≤ R := mul_nonneg (by have := primeVertical_pos G.latitude; linarith) hcos
  have hc := Real.cos_sub G.longitude l
  have hs := Real.sin_sub G.longitude l
  have hl := Real.sin_sq_add_cos_sq l
  have hY : 0 ≤ R * (1 - Real.cos (G.longitude - l)) := mul_nonneg hR (by linarith [Real.cos_le_one (G.longitude - l)])
  have hφ := Real.sin_sq_add_cos_sq φ
  refine ⟨?_, ?_, ?_⟩
  · have m := meridian (α := Real.sin φ) (β := -Real.cos φ) hG (by rw [neg_sq]; linarith) G.latitude φ
    have e : dot (south φ l) L = ((Real.sin φ * ((primeVertical G.latitude + G.height) * Real.cos G.latitude) +
        -Real.cos φ * ((primeVertical G.latitude * (1 - ellE2) + G.height) * Real.sin G.latitude)) -
      (Real.sin φ * ((primeVertical φ + G.height) * Real.cos φ) + -Real.cos φ * ((primeVertical φ * (1 - ellE2) + G.height) * Real.sin φ))) -
      Real.sin φ * (R * (1 - Real.cos (G.longitude - l))) := by
      simp only [L, R, geodedic_to_ecf_real, sub, dot, south, hc, add_zero]
      linear_combination (-(Real.sin φ * primeVertical φ * Real.cos φ)) * hl
    rw [e]
    refine (abs_sub _ _).trans (add_le_add m ?_)
    rw [abs_mul, abs_of_nonneg hY]
    exact mul_le_of_le_one_left hY (Real.abs_sin_le_one _)
  · have m := meridian (α := Real.cos φ) (β := Real.sin φ) hG (by linarith) G.latitude φ
    have e : dot (zenith φ l) L - G.height = ((Real.cos φ * ((primeVertical G.latitude + G.height) * Real.cos G.latitude) +
        Real.sin φ * ((primeVertical G.latitude * (1 - ellE2) + G.height) * Real.sin G.latitude)) -
      (Real.cos φ * ((primeVertical φ + G.height) * Real.cos φ) + Real.sin φ * ((primeVertical φ * (1 - ellE2) + G.height) * Real.sin φ))) -
      Real.cos φ * (R * (1 - Real.cos (G.longitude - l))) := by
      simp only [L, R, geodedic_to_ecf_real, sub, dot, zenith, hc, add_zero]
      linear_combination (-(Real.cos φ * primeVertical φ * Real.cos φ)) * hl + G.height * hφ
    rw [e]
    refine (abs_sub _ _).trans (add_le_add m ?_)
    rw [abs_mul, abs_of_nonneg hY]
    exact mul_le_of_le_one_left hY (Real.abs_cos_le_one _)
  · simp only [L, R, geodedic_to_ecf_real, sub, dot, east, hs, add_zero]
    ring

theorem frame_square (φ l : ℝ) (L : Vec3 ℝ) : len L ^ 2 = dot (south φ l) L ^ 2 + dot (east l) L ^ 2 + dot (zenith φ l) L ^ 2 := by
  rw [len_sq]
  have h1 := Real.sin_sq_add_cos_sq φ
  have h2 := Real.sin_sq_add_cos_sq l
  simp only [dot, south, east, zenith]
  generalize Real.sin φ = a at *
  generalize Real.cos φ = b at *
  generalize Real.sin l = c at *
  generalize Real.cos l = d at *
  have e1 : a ^ 2 = 1 - b ^ 2 := by linarith
  have e2 : c ^ 2 = 1 - d ^ 2 := by linarith
  ring_nf
  simp only [e1, e2]
  ring

/-- a point at the height `h` is at least that much further from the centre than the ellipsoid -/
theorem len_of_height (G : Geodedic ℝ) (hG : 0 ≤ G.height) : 6356.7 + G.height ≤ len (geodedic_to_ecf G) := by
  have hf := frame_square G.latitude G.longitude (geodedic_to_ecf G)
  obtain ⟨w1, w2, w3, w4⟩ := w_bounds G.latitude
  have hd : dot (zenith G.latitude G.longitude) (geodedic_to_ecf G) = equatorial * Real.sqrt (1 - ellE2 * Real.sin G.latitude ^ 2) + G.height := by
    have h1 := Real.sin_sq_add_cos_sq G.latitude
    have h2 := Real.sin_sq_add_cos_sq G.longitude
    have h3 : primeVertical G.latitude * (1 - ellE2 * Real.sin G.latitude ^ 2) = equatorial * Real.sqrt (1 - ellE2 * Real.sin G.latitude ^ 2) := by
      have hs : Real.sqrt (1 - ellE2 * Real.sin G.latitude ^ 2) ≠ 0 := by linarith
      rw [primeVertical, div_mul_eq_mul_div, div_eq_iff hs, mul_assoc, Real.mul_self_sqrt (by linarith)]
    rw [← h3]
    simp only [geodedic_to_ecf_real, dot, zenith]
    linear_combination (Real.cos G.latitude ^ 2 * (primeVertical G.latitude + G.height)) * h2 + (primeVertical G.latitude + G.height) * h1
  have h0 : 6356.7 + G.height ≤ dot (zenith G.latitude G.longitude) (geodedic_to_ecf G) := by
    rw [hd, equatorial]; linarith
  refine h0.trans (abs_le_of_sq_le_sq' (b := len (geodedic_to_ecf G)) ?_ (Real.sqrt_nonneg _)).2
  rw [hf]; nlinarith [sq_nonneg (dot (south G.latitude G.longitude) (geodedic_to_ecf G)), sq_nonneg (dot (east G.longitude) (geodedic_to_ecf G))]

/-- the distances along the meridian, along the parallel and along the vertical -/
theorem Tracks.offset {g : Geodedic F64} {G : Geodedic ℝ} (h : Tracks g G (geodedic_to_ecf G) (4.3 / 10 ^ 3)) (hG : 0 ≤ G.height)
    (hlat : |G.latitude| ≤ Real.pi / 2) :
    let L := sub (geodedic_to_ecf G) (geodedic_to_ecf ⟨g.longitude.val, g.latitude.val, 0⟩)
    |dot (south g.latitude.val g.longitude.val) L| ≤ 0.192 ∧ |dot (zenith g.latitude.val g.longitude.val) L - G.height| ≤ 0.192 ∧
      |dot (east g.longitude.val) L| ≤ 0.086 := by
  intro L
  obtain ⟨t1, t2, t3, t4, t5, t6, t7⟩ := h
  obtain ⟨a1, a2, a3⟩ := seen_from_below (φ := g.latitude.val) (l := g.longitude.val) hG hlat
  have hlen := len_of_height G hG
  have hcos : 0 ≤ Real.cos G.latitude := Real.cos_nonneg_of_mem_Icc ⟨by linarith [(abs_le.mp hlat).1], (abs_le.mp hlat).2⟩
  obtain ⟨n1, n2⟩ := primeVertical_bounds G.latitude
  set R := (primeVertical G.latitude + G.height) * Real.cos G.latitude with hR
  have hR0 : 0 ≤ R := mul_nonneg (by linarith) hcos
  have hm : (6400 + G.height) * |G.latitude - g.latitude.val| ≤ 1.0069 * (0.152 * Real.cos G.latitude + 3.8 * (4.3 / 10 ^ 3)) := by
    rw [abs_sub_comm]
    have : 6400 + G.height ≤ 1.0069 * len (geodedic_to_ecf G) := by norm_num at *; linarith
    calc _ ≤ 1.0069 * len (geodedic_to_ecf G) * |g.latitude.val - G.latitude| := mul_le_mul_of_nonneg_right this (abs_nonneg _)
      _ = 1.0069 * (|g.latitude.val - G.latitude| * len (geodedic_to_ecf G)) := by ring
      _ ≤ _ := mul_le_mul_of_nonneg_left t3 (by norm_num)
  have hxy : (geodedic_to_ecf G).x ^ 2 + (geodedic_to_ecf G).y ^ 2 = R ^ 2 := by
    simp only [geodedic_to_ecf_real, hR]
    linear_combination ((primeVertical G.latitude + G.height) * Real.cos G.latitude) ^ 2 * Real.sin_sq_add_cos_sq G.longitude
  have c1 := Real.neg_one_le_cos (G.longitude - g.longitude.val)
  have c2 := Real.cos_le_one (G.longitude - g.longitude.val)
  by_cases hp : 0.086 ≤ R
  · obtain ⟨k, hk⟩ := t6 R (by norm_num at *; linarith) (by rw [hxy])
    have eR : R * (5 * (4.3 / 10 ^ 3) / R) = 0.0215 := by
      have : R ≠ 0 := by intro h; rw [h] at hp; norm_num at hp
      field_simp; norm_num
    have s1 : |Real.sin (G.longitude - g.longitude.val)| ≤ 5 * (4.3 / 10 ^ 3) / R := by
      rw [← Real.sin_add_int_mul_two_pi _ k]
      refine (Real.abs_sin_le_abs).trans ?_
      rw [show G.longitude - g.longitude.val + k * (2 * Real.pi) = -(g.longitude.val - (G.longitude + k * (2 * Real.pi))) by ring, abs_neg]; exact hk
    have s2 : 1 - Real.cos (G.longitude - g.longitude.val) ≤ 5 * (4.3 / 10 ^ 3) / R := by
      rw [← Real.cos_add_int_mul_two_pi _ k]
      have := cos_lip 0 (G.longitude - g.longitude.val + k * (2 * Real.pi))
      rw [Real.cos_zero] at this
      refine (le_abs_self _).trans (this.trans ?_)
      rw [show 0 - (G.longitude - g.longitude.val + k * (2 * Real.pi)) = g.longitude.val - (G.longitude + k * (2 * Real.pi)) by ring]; exact hk
    have r1 := mul_le_mul_of_nonneg_left s2 hR0
    have r2 := mul_le_mul_of_nonneg_left s1 hR0
    rw [eR] at r1 r2
    have hc1 := Real.cos_le_one G.latitude
    refine ⟨a1.trans ?_, a2.trans ?_, ?_⟩
    · norm_num at *; linarith
    · norm_num at *; linarith
    · rw [a3, abs_mul, abs_of_nonneg hR0]; norm_num at *; linarith
  · push Not at hp
    have hc1 : Real.cos G.latitude ≤ 0.086 / 6378 := by
      rw [le_div_iff₀ (by norm_num)]
      have : 6378 * Real.cos G.latitude ≤ R := mul_le_mul_of_nonneg_right (by norm_num at *; linarith) hcos
      linarith
    have r1 : R * (1 - Real.cos (G.longitude - g.longitude.val)) ≤ 0.172 := by
      have := mul_le_mul_of_nonneg_left (by linarith : 1 - Real.cos (G.longitude - g.longitude.val) ≤ 2) hR0
      norm_num at *; linarith
    have r2 := mul_le_mul_of_nonneg_left (Real.abs_sin_le_one (G.longitude - g.longitude.val)) hR0
    refine ⟨a1.trans ?_, a2.trans ?_, ?_⟩
    · norm_num at *; linarith
    · norm_num at *; linarith
    · rw [a3, abs_mul, abs_of_nonneg hR0]; norm_num at *; linarith

/-- a bearing along a nearly vertical line of sight -/
theorem Points.vertical {b : Bearing F64} {φ l h : ℝ} {L : Vec3 ℝ} (hb : Points b φ l L (8 / 10 ^ 3)) (hh : 115 ≤ h)
    (h1 : |dot (south φ l) L| ≤ 0.192) (h2 : |dot (zenith φ l) L - h| ≤ 0.192) (h3 : |dot (east l) L| ≤ 0.086) :
    89 * (Real.pi / 180) ≤ b.elevation.val ∧ |b.range.val - h| ≤ 0.201 := by
  obtain ⟨p1, p2, p3, p4, -, -⟩ := hb
  have hf := frame_square φ l L
  have hl0 : 0 ≤ len L := Real.sqrt_nonneg _
  have q1 : dot (south φ l) L ^ 2 ≤ 0.192 ^ 2 := sq_le_sq' (abs_le.mp h1).1 (abs_le.mp h1).2
  have q3 : dot (east l) L ^ 2 ≤ 0.086 ^ 2 := sq_le_sq' (abs_le.mp h3).1 (abs_le.mp h3).2
  obtain ⟨u1, u2⟩ := abs_le.mp h2
  generalize dot (south φ l) L = S at *
  generalize dot (east l) L = E at *
  generalize dot (zenith φ l) L = U at *
  have hU : 114.8 ≤ U := by norm_num at *; linarith
  have hLU : U ≤ len L := by nlinarith [sq_nonneg S, sq_nonneg E]
  have hUL : len L ≤ U + 0.0003 := by
    refine (abs_le_of_sq_le_sq' ?_ (by linarith)).2
    norm_num at *; nlinarith
  have hLp : 0 < len L := by linarith
  constructor
  · have s1 : 1 - 0.000145 ≤ Real.sin b.elevation.val := by
      have e1 : 1 - 0.0000027 ≤ U / len L := by rw [le_div_iff₀ hLp]; norm_num at *; linarith
      have e2 : 2 * (8 / 10 ^ 3) / len L ≤ 0.0001394 := by rw [div_le_iff₀ hLp]; norm_num at *; linarith
      have := (abs_le.mp p4).1
      norm_num at *; linarith
    by_contra hc
    push Not at hc
    have hπ := Real.pi_gt_d2
    have hπ' := Real.pi_lt_d2
    have : Real.sin b.elevation.val < Real.sin (89 * (Real.pi / 180)) :=
      Real.sin_lt_sin_of_lt_of_le_pi_div_two (by linarith [(abs_le.mp p3).1]) (by linarith) hc
    rw [show 89 * (Real.pi / 180) = Real.pi / 2 - Real.pi / 180 by ring, Real.sin_pi_div_two_sub] at this
    have hx : |Real.pi / 180| ≤ 1 := by rw [abs_of_pos (by positivity)]; linarith
    have hcb := (abs_le.mp (Real.cos_bound hx)).2
    rw [abs_of_pos (by positivity)] at hcb
    have x1 : 0.01744 ≤ Real.pi / 180 := by norm_num at *; linarith
    have x2 : Real.pi / 180 ≤ 0.0175 := by norm_num at *; linarith
    have x3 : (Real.pi / 180) ^ 4 ≤ 0.0175 ^ 4 := pow_le_pow_left₀ (by positivity) x2 4
    have x4 : 0.01744 ^ 2 ≤ (Real.pi / 180) ^ 2 := pow_le_pow_left₀ (by norm_num) x1 2
    generalize Real.pi / 180 = x at *
    norm_num at *; linarith
  · have := abs_le.mp p1.2
    rw [abs_le]; norm_num at *; constructor <;> linarith [this.1, this.2]

variable [Libm]

/-- **C107.** From the place that `eci_to_geodedic` reports below the satellite, at sea level, `ecf_to_look_angles` finds it overhead: the elevation is
at least 89 degrees and the range is its geodetic height up to 201 metres; the reported height is less than the range by at most 22 km. -/
theorem C107_overhead_f64 (hL : Libm.Faithful) (l1 l2 : Str) (v : Tle) (h : Printed l1 l2 v) (hpos : v.nddotNeg = false ∨ v.nddotMant = 0)
    (hnd : Normal v.nddotMant) (hb : Normal v.bstarMant) (hday : v.dayE8 ≤ 400 * 10 ^ 8) (hl : LowTle v 0)
    (time : DateTimeUtc) (d : Date) (hd : d.InRange) (hy : time.year = d.year) (hm : time.month = d.month) (hdd : time.day = d.day)
    (hh : time.hour < 24) (hmi : time.minute < 60) (hse : time.second < 60) :
    ∃ (s : Satrec F64) (year nE nD : ℕ), twoline2satrec l1 l2 = .ok s ∧
      1957 ≤ year ∧ year ≤ 2056 ∧ (year : ℤ) % 100 = v.year ∧ base.after nE = ⟨year, 1, 1⟩ ∧ base.after nD = d ∧
      let τ : ℝ := ((nD : ℝ) - nE + 1 - (v.dayE8 : ℝ) / 10 ^ 8) * 1440 + time.hour * 60 + time.minute + (time.second : ℝ) / 60
      |τ| ≤ 43199 → |tleDrag v * τ| * tleLow v ^ 5 ≤ 1.99 →
        let m := (tleOrbit v).mean (tleNode v) τ
        ∃ (p : SGP4Result F64) (E : ℝ) (g : Geodedic F64) (G : Geodedic ℝ), propogate_datetime s time = some (.ok p) ∧
          m.kepler E = 0 ∧ (∀ E', m.kepler E' = 0 → E' = E) ∧
          eci_to_geodedic p.position (gstime_datetime time) = some g ∧
          let O := rotZ (-siderealAngle nD time) (vec (m.positionKm E))
          let b := ecf_to_look_angles { g with height := 0.0 } (eci_to_ecf p.position (gstime_datetime time))
          Stands G O ∧ b.elevation.Fin ∧ b.range.Fin ∧ 89 * (Real.pi / 180) ≤ b.elevation.val ∧ b.elevation.val ≤ Real.pi / 2 ∧
          |b.range.val - G.height| ≤ 0.201 ∧
          (1 ≤ O.x ^ 2 + O.y ^ 2 → g.height.Fin ∧ -0.4 ≤ b.range.val - g.height.val ∧ b.range.val - g.height.val ≤ 22) := by
  obtain ⟨s, year, nE, nD, hs, y1, y2, y3, y4, y5, k⟩ := C91_ground_track_f64 hL l1 l2 v h hpos hnd hb hday hl time d hd hy hm hdd hh hmi hse
  refine ⟨s, year, nE, nD, hs, y1, y2, y3, y4, y5, ?_⟩
  intro τ h1 h2 m
  obtain ⟨p, E, g, r1, r2, r3, r4, ⟨G, t1, t2, t3, t4⟩, r5⟩ := k h1 h2
  refine ⟨p, E, g, G, r1, r2, r3, r4, ?_⟩
  intro O b
  have hper := hl.perigee
  have hG : 115 ≤ G.height := by norm_num at hper t4 ⊢; linarith
  have ht := r5 G t1 t2 (by linarith)
  obtain ⟨z1, z2⟩ := sci_int (m := 0) (s := true) (k := 1) 0 (by norm_num) (by norm_num)
  have z3 : (0.0 : F64).val = 0 := z2.trans (by push_cast; rfl)
  obtain ⟨s', year', nE', nD', hs', y1', y2', y3', y4', y5', k'⟩ := C90_look_angles_from_ground_f64 hL l1 l2 v h hpos hnd hb hday hl time d hd hy hm hdd
    hh hmi hse { g with height := 0.0 } ⟨ht.1, ht.2.2.2.1, z1, by show |(0.0 : F64).val| ≤ _; rw [z3]; norm_num⟩
    (by show |(0.0 : F64).val| + _ ≤ _; rw [z3]; norm_num at hper ⊢; linarith)
  have e : s' = s := by rw [hs] at hs'; exact (Res.ok.inj hs').symm
  subst e
  have ey : year' = year := by omega
  subst ey
  have en : nE' = nE := by
    have e1 := (serial_after nE).2.2
    have e2 := (serial_after nE').2.2
    rw [y4] at e1
    rw [y4'] at e2
    omega
  subst en
  have en : nD' = nD := by
    have e1 := (serial_after nD).2.2
    have e2 := (serial_after nD').2.2
    rw [y5] at e1
    rw [y5'] at e2
    omega
  subst en
  obtain ⟨p', E', P, q1, q2, q3, q4, q5⟩ := k' h1 h2
  have ep : p' = p := by rw [r1] at q1; exact (Except.ok.inj (Option.some.inj q1)).symm
  subst ep
  have eE : E' = E := r3 _ q2
  subst eE
  have eO : O = geodedic_to_ecf G := stands_iff.mp t1
  have eP : P = geodedic_to_ecf ⟨g.longitude.val, g.latitude.val, 0⟩ := by
    have := stands_iff.mp q4
    rw [this]
    show geodedic_to_ecf ⟨g.longitude.val, g.latitude.val, (0.0 : F64).val⟩ = _
    rw [z3]
  have ht' : Tracks g G (geodedic_to_ecf G) (4.3 / 10 ^ 3) := by rw [← eO]; exact ht
  obtain ⟨o1, o2, o3⟩ := ht'.offset (by linarith) t2
  have q5' : Points b g.latitude.val g.longitude.val (sub (geodedic_to_ecf G) (geodedic_to_ecf ⟨g.longitude.val, g.latitude.val, 0⟩)) (8 / 10 ^ 3) := by
    rw [← eO, ← eP]; exact q5
  obtain ⟨w1, w2⟩ := q5'.vertical hG o1 o2 o3
  refine ⟨t1, q5'.2.1, q5'.1.1, w1, (abs_le.mp q5'.2.2.1).2, w2, fun hO => ?_⟩
  have c := ht.2.2.2.2.2.2 hO
  obtain ⟨c1, c2⟩ := abs_le.mp c.2
  obtain ⟨b1, b2⟩ := heightError_bounds G.latitude
  obtain ⟨w3, w4⟩ := abs_le.mp w2
  refine ⟨c.1, ?_, ?_⟩ <;> norm_num at * <;> linarith

/-- The weather satellite of `Props/F64Text.lean` on 2020 February 5 at 6:30:15 is overhead at the place reported below it. -/
theorem noaa_overhead (hL : Libm.Faithful) (time : DateTimeUtc) (h1 : time.year = 2020) (h2 : time.month = 2) (h3 : time.day = 5) (h4 : time.hour = 6)
    (h5 : time.minute = 30) (h6 : time.second = 15) :
    ∃ (s : Satrec F64) (p : SGP4Result F64) (g : Geodedic F64), twoline2satrec noaaLine1 noaaLine2 = .ok s ∧
      propogate_datetime s time = some (.ok p) ∧ eci_to_geodedic p.position (gstime_datetime time) = some g ∧
      89 * (Real.pi / 180) ≤
        (ecf_to_look_angles { g with height := 0.0 } (eci_to_ecf p.position (gstime_datetime time))).elevation.val := by
  obtain ⟨s, year, nE, nD, hs, y1, y2, y3, y4, y5, hh⟩ := C107_overhead_f64 hL _ _ _ noaa_printed (Or.inl rfl) (Or.inl rfl) (Or.inr (by decide))
    (by decide) (noaa_low (τ := 0) (by norm_num)) time ⟨2020, 2, 5⟩ ⟨by decide, by unfold Date.before base; decide, by unfold Date.before; decide⟩ h1 h2 h3
    (by omega) (by omega) (by omega)
  have ey : year = 2020 := by
    have e : (noaaTle.year : ℤ) = 20 := rfl
    rw [e] at y3; omega
  have e1 := (serial_after nE).2.2
  have e2 := (serial_after nD).2.2
  rw [y4, ey] at e1
  rw [y5] at e2
  have e3 : serial ⟨2020, 2, 5⟩ = serial ⟨2020, 1, 1⟩ + 35 := by decide +kernel
  have e4 : (nD : ℝ) = nE + 35 := by exact_mod_cast (by omega : nD = nE + 35)
  have e5 : ((nD : ℝ) - nE + 1 - (noaaTle.dayE8 : ℝ) / 10 ^ 8) * 1440 + time.hour * 60 + time.minute + (time.second : ℝ) / 60 =
      (36 - 29.54791435) * 1440 + 6 * 60 + 30 + 15 / 60 := by
    rw [e4, h4, h5, h6, show (noaaTle.dayE8 : ℝ) = 2954791435 by unfold noaaTle; norm_num]; norm_num
  dsimp only at hh
  rw [e5] at hh
  have hd : tleDrag noaaTle = 59621 / 10 ^ 9 := by
    unfold tleDrag impliedValue sexp noaaTle; norm_num
  obtain ⟨p, E, g, G, k1, -, -, k2, -, -, -, k3, -⟩ := hh (by norm_num [abs_of_pos]) (by rw [hd, noaa_lowness]; norm_num [abs_of_pos])
  exact ⟨s, p, g, hs, k1, k2, k3⟩

omit [Libm] in
theorem Tracks.mono {g : Geodedic F64} {G : Geodedic ℝ} {O : Vec3 ℝ} {δ δ' : ℝ} (h : Tracks g G O δ) (h0 : 0 < δ) (hd : δ ≤ δ') : Tracks g G O δ' := by
  obtain ⟨t1, t2, t3, t4, t5, t6, t7⟩ := h
  refine ⟨t1, t2, t3.trans (by linarith), t4, t5, fun m hm hm2 => ?_, fun hO => ⟨(t7 hO).1, (t7 hO).2.trans (by linarith)⟩⟩
  obtain ⟨k, hk⟩ := t6 m (by linarith) hm2
  have : 0 < m := lt_of_lt_of_le (by linarith) hm
  exact ⟨k, hk.trans (by gcongr)⟩

/-- **C107**, deep-space orbits: the same from the text of a deep-space set; `G` are geodetic coordinates of the position of the theory at an instant
within 150 microseconds of the one asked for, in the earth-fixed frame of the date. -/
theorem C107_deep_overhead_f64 (hL : Libm.Faithful) (l1 l2 : Str) (v : Tle) (h : Printed l1 l2 v) (hpos : v.nddotNeg = false ∨ v.nddotMant = 0)
    (hnd : Normal v.nddotMant) (hb : Normal v.bstarMant) (hl : HighTle v)
    (time : DateTimeUtc) (d : Date) (hd : d.InRange) (hy : time.year = d.year) (hm : time.month = d.month) (hdd : time.day = d.day)
    (hh : time.hour < 24) (hmi : time.minute < 60) (hse : time.second < 60) :
    ∃ (s : Satrec F64) (year nE nD : ℕ), twoline2satrec l1 l2 = .ok s ∧
      1957 ≤ year ∧ year ≤ 2056 ∧ (year : ℤ) % 100 = v.year ∧ base.after nE = ⟨year, 1, 1⟩ ∧ base.after nD = d ∧
      let τ : ℝ := ((nD : ℝ) - nE + 1 - (v.dayE8 : ℝ) / 10 ^ 8) * 1440 + time.hour * 60 + time.minute + (time.second : ℝ) / 60
      |τ| ≤ 43199 →
        ∃ (τ' : ℝ) (p : SGP4Result F64) (k : ℕ) (g : Geodedic F64) (G : Geodedic ℝ), propogate_datetime s time = some (.ok p) ∧ |τ' - τ| ≤ 1 / 400000 ∧
          let m := carriedMean (tleOrbit v) (tleNode v) (2415079.5 + nE - 1 + (v.dayE8 : ℝ) / 10 ^ 8 - 2415020) τ'
          k ≤ 9 ∧ (∀ j < k, 1e-12 ≤ |m.correction (m.newton j)|) ∧ (k = 9 ∨ |m.correction (m.newton k)| < 1e-12) ∧
          eci_to_geodedic p.position (gstime_datetime time) = some g ∧
          let O := rotZ (-siderealAngle nD time) (vec (m.positionKm (m.newton k)))
          let b := ecf_to_look_angles { g with height := 0.0 } (eci_to_ecf p.position (gstime_datetime time))
          Stands G O ∧ b.elevation.Fin ∧ b.range.Fin ∧ 89 * (Real.pi / 180) ≤ b.elevation.val ∧ b.elevation.val ≤ Real.pi / 2 ∧
          |b.range.val - G.height| ≤ 0.201 ∧
          (1 ≤ O.x ^ 2 + O.y ^ 2 → g.height.Fin ∧ -0.4 ≤ b.range.val - g.height.val ∧ b.range.val - g.height.val ≤ 22) := by
  obtain ⟨s, year, nE, nD, hs, y1, y2, y3, y4, y5, hh'⟩ := deep_sized_at_date hL l1 l2 v h hpos hnd hb hl time d hd hy hm hdd hh hmi hse
  refine ⟨s, year, nE, nD, hs, y1, y2, y3, y4, y5, ?_⟩
  intro τ h1
  obtain ⟨τ', p, k1, k2, k, k3, k4, k5, k6, -, k8, k9, -⟩ := hh' h1
  obtain ⟨g1, g3, K, g2⟩ := sidereal_f64 time d hd hy hm hdd hh hmi hse nD y5 (day_small hl.day y1 y2 y4 h1)
  set m := carriedMean (tleOrbit v) (tleNode v) (2415079.5 + nE - 1 + (v.dayE8 : ℝ) / 10 ^ 8 - 2415020) τ' with hm
  have hbd := far_bounded k9 k6
  set X := vec (m.positionKm (m.newton k)) with hX
  set O := rotZ (-siderealAngle nD time) X with hO
  have hback : rotZ (siderealAngle nD time) O = X := by
    have := Real.sin_sq_add_cos_sq (siderealAngle nD time)
    rw [hO]
    ext
    · simp only [rotZ, Real.sin_neg, Real.cos_neg]; linear_combination X.x * this
    · simp only [rotZ, Real.sin_neg, Real.cos_neg]; linear_combination X.y * this
    · rfl
  obtain ⟨G, s1, s2, s3, s4⟩ := has_place O (D := 6569) (by norm_num) (by
    rw [← len_sq, hO, rotZ_length]
    gcongr)
  have hG : 115 ≤ G.height := by norm_num at s4; linarith
  have hc : p.position.Close X (1.2 / 10 ^ 3) := ⟨⟨k6.1.1, k6.1.2.trans (by norm_num)⟩, ⟨k6.2.1.1, k6.2.1.2.trans (by norm_num)⟩,
    ⟨k6.2.2.1, k6.2.2.2.trans (by norm_num)⟩⟩
  obtain ⟨g, t1, t2⟩ := track_near hL hbd g1 g3 s1 s2 (by linarith) g2 (δ := 1.2 / 10 ^ 3) (by norm_num) (by norm_num) (by norm_num) (by rw [hback]; exact hc)
  have ht := t2.mono (δ' := 4.3 / 10 ^ 3) (by norm_num) (by norm_num)
  refine ⟨τ', p, k, g, G, k1, k2, k3, k4, k5, t1, ?_⟩
  intro _ b
  obtain ⟨z1, z2⟩ := sci_int (m := 0) (s := true) (k := 1) 0 (by norm_num) (by norm_num)
  have z3 : (0.0 : F64).val = 0 := z2.trans (by push_cast; rfl)
  set g0 : Geodedic F64 := { g with height := 0.0 } with hg0
  have eg : g0.exact = ⟨g.longitude.val, g.latitude.val, 0⟩ := by
    show (⟨g.longitude.val, g.latitude.val, (0.0 : F64).val⟩ : Geodedic ℝ) = _
    rw [z3]
  have eO : O = geodedic_to_ecf G := stands_iff.mp s1
  have q5 := far_points hL (g := g0) ⟨ht.1, ht.2.2.2.1, z1, by show |(0.0 : F64).val| ≤ _; rw [z3]; norm_num⟩ k9 k6 g1 g2 (by
    have hP := stands_near (stands_ecf g0.exact)
    have := (abs_le.mp (len_sub_len O (geodedic_to_ecf g0.exact))).2
    rw [hO, rotZ_length] at this
    rw [eg] at hP this ⊢
    rw [show (⟨g.longitude.val, g.latitude.val, 0⟩ : Geodedic ℝ).height = 0 from rfl, abs_zero] at hP
    norm_num at *; linarith)
  have q5' : Points b g.latitude.val g.longitude.val (sub (geodedic_to_ecf G) (geodedic_to_ecf ⟨g.longitude.val, g.latitude.val, 0⟩)) (8 / 10 ^ 3) := by
    rw [← eO, ← eg]
    refine Points.mono q5 (by norm_num) (by norm_num) ?_
    have hP := stands_near (stands_ecf g0.exact)
    have := (abs_le.mp (len_sub_len O (geodedic_to_ecf g0.exact))).2
    rw [hO, rotZ_length] at this
    rw [eg] at hP this ⊢
    rw [show (⟨g.longitude.val, g.latitude.val, 0⟩ : Geodedic ℝ).height = 0 from rfl, abs_zero] at hP
    norm_num at *; linarith
  have ht' : Tracks g G (geodedic_to_ecf G) (4.3 / 10 ^ 3) := by rw [← eO]; exact ht
  obtain ⟨o1, o2, o3⟩ := ht'.offset (by linarith) s2
  obtain ⟨w1, w2⟩ := q5'.vertical hG o1 o2 o3
  refine ⟨s1, q5'.2.1, q5'.1.1, w1, (abs_le.mp q5'.2.2.1).2, w2, fun hO => ?_⟩
  have c := ht.2.2.2.2.2.2 hO
  obtain ⟨c1, c2⟩ := abs_le.mp c.2
  obtain ⟨b1, b2⟩ := heightError_bounds G.latitude
  obtain ⟨w3, w4⟩ := abs_le.mp w2
  refine ⟨c.1, ?_, ?_⟩ <;> norm_num at c1 c2 b1 b2 w3 w4 ⊢ <;> linarith

/-- The navigation satellite of `Props/F64DeepText.lean` on 1997 October 1 at 12:00. -/
theorem nav_overhead (hL : Libm.Faithful) (time : DateTimeUtc) (h1 : time.year = 1997) (h2 : time.month = 10) (h3 : time.day = 1) (h4 : time.hour = 12)
    (h5 : time.minute = 0) (h6 : time.second = 0) :
    ∃ (s : Satrec F64) (p : SGP4Result F64) (g : Geodedic F64), twoline2satrec navLine1 navLine2 = .ok s ∧
      propogate_datetime s time = some (.ok p) ∧ eci_to_geodedic p.position (gstime_datetime time) = some g ∧
      89 * (Real.pi / 180) ≤
        (ecf_to_look_angles { g with height := 0.0 } (eci_to_ecf p.position (gstime_datetime time))).elevation.val := by
  obtain ⟨s, year, nE, nD, hs, y1, y2, y3, y4, y5, hh⟩ := C107_deep_overhead_f64 hL _ _ _ nav_printed (Or.inl rfl) (Or.inl rfl) (Or.inr (by decide))
    nav_high time ⟨1997, 10, 1⟩ ⟨by decide, by unfold Date.before base; decide, by unfold Date.before; decide⟩ h1 h2 h3
    (by omega) (by omega) (by omega)
  have ey : year = 1997 := by
    have e : (navTle.year : ℤ) = 97 := rfl
    rw [e] at y3; omega
  have e1 := (serial_after nE).2.2
  have e2 := (serial_after nD).2.2
  rw [y4, ey] at e1
  rw [y5] at e2
  have e3 : serial ⟨1997, 10, 1⟩ = serial ⟨1997, 1, 1⟩ + 273 := by decide +kernel
  have e4 : (nD : ℝ) = nE + 273 := by exact_mod_cast (by omega : nD = nE + 273)
  have e5 : ((nD : ℝ) - nE + 1 - (navTle.dayE8 : ℝ) / 10 ^ 8) * 1440 + time.hour * 60 + time.minute + (time.second : ℝ) / 60 =
      (274 - 264.51782528) * 1440 + 12 * 60 := by
    rw [e4, h4, h5, h6, show (navTle.dayE8 : ℝ) = 26451782528 by unfold navTle; norm_num]; norm_num
  dsimp only at hh
  rw [e5] at hh
  obtain ⟨τ', p, k, g, G, k1, -, -, -, -, k2, -, -, -, k3, -⟩ := hh (by norm_num [abs_of_pos])
  exact ⟨s, p, g, hs, k1, k2, k3⟩

end Sat
