import Verif.Props.F64DeepSight
/-!
# C95: the Doppler factor against the range rate of the theory

`doppler_factor` takes the change of the range over one second along the straight line given by the velocity.  This is compared with the range rate, and
then, in doubles, with the range rate of the theory for a printed set and a date.
-/

namespace Sat
open F64 hiding sub
open Spec Spec.R3 Spec.SDP Chain

/-- Range rate: the component of the velocity along the line of sight (km/s), for a point of observation at rest. -/
noncomputable def rangeRate (location position velocity : Vec3 ℝ) : ℝ := dot velocity (sub position location) / len (sub position location)

/-- It is the derivative of the distance to the moving satellite. -/
theorem rangeRate_is_rate (L X V : Vec3 ℝ) (h : 0 < len (sub X L)) :
    HasDerivAt (fun s => len (sub (along X s V) L)) (rangeRate L X V) 0 := by
  have hd : 0 < dot (sub X L) (sub X L) := Real.sqrt_pos.mp h
  have e : ∀ s : ℝ, dot (sub (along X s V) L) (sub (along X s V) L) = dot (sub X L) (sub X L) + 2 * dot V (sub X L) * s + dot V V * s ^ 2 := by
    intro s; simp only [dot, Spec.sub, along]; ring
  have h1 : HasDerivAt (fun s : ℝ => dot (sub X L) (sub X L) + 2 * dot V (sub X L) * s + dot V V * s ^ 2) (2 * dot V (sub X L)) 0 := by
    have := (((hasDerivAt_id (0:ℝ)).const_mul (2 * dot V (sub X L))).const_add (dot (sub X L) (sub X L))).add
      ((hasDerivAt_pow 2 (0:ℝ)).const_mul (dot V V))
    refine this.congr_deriv ?_
    simp
  have h2 := h1.sqrt (by simpa using hd.ne')
  have h3 : (fun s => len (sub (along X s V) L)) = fun s : ℝ => Real.sqrt (dot (sub X L) (sub X L) + 2 * dot V (sub X L) * s + dot V V * s ^ 2) := by
    funext s; rw [len, e]
  rw [h3]
  convert h2 using 1
  unfold rangeRate len
  simp only [mul_zero, add_zero, ne_eq, OfNat.ofNat_ne_zero, not_false_eq_true, zero_pow]
  have : Real.sqrt (dot (sub X L) (sub X L)) ≠ 0 := (Real.sqrt_pos.mpr hd).ne'
  field_simp

/-- the change of distance in one second exceeds the range rate, by less than half the squared speed over the distance -/
theorem one_second (P V : Vec3 ℝ) (h : 0 < len P) :
    0 ≤ len (along P 1 V) - len P - dot V P / len P ∧ len (along P 1 V) - len P - dot V P / len P ≤ len V ^ 2 / (2 * len P) := by
  have h0 := len_sq P
  have h1 := len_sq V
  have h2 := len_sq (along P 1 V)
  have n2 : 0 ≤ len (along P 1 V) := Real.sqrt_nonneg _
  have cs : dot V P ^ 2 ≤ len V ^ 2 * len P ^ 2 := by
    rw [h0, h1]; unfold dot
    nlinarith [sq_nonneg (V.x * P.y - V.y * P.x), sq_nonneg (V.x * P.z - V.z * P.x), sq_nonneg (V.y * P.z - V.z * P.y)]
  have e : len (along P 1 V) ^ 2 = len P ^ 2 + 2 * dot V P + len V ^ 2 := by
    rw [h0, h1, h2]; simp only [along, dot]; ring
  set ρ := len P
  set W := len V
  set N := len (along P 1 V)
  set D := dot V P
  constructor
  · have : ρ + D / ρ ≤ N := by
      refine abs_le_of_sq_le_sq' ?_ n2 |>.2
      rw [e, add_sq, mul_assoc, mul_div_cancel₀ _ h.ne', div_pow]
      have : D ^ 2 / ρ ^ 2 ≤ W ^ 2 := by rw [div_le_iff₀ (by positivity)]; exact cs
      linarith
    linarith
  · have e2 : ρ + D / ρ + W ^ 2 / (2 * ρ) = (N ^ 2 + ρ ^ 2) / (2 * ρ) := by
      rw [e]; field_simp; ring
    have : N ≤ (N ^ 2 + ρ ^ 2) / (2 * ρ) := by
      rw [le_div_iff₀ (by positivity)]; nlinarith [sq_nonneg (N - ρ)]
    linarith

/-- **C95**, exact arithmetic: the factor is one plus the size of the range rate over the speed of light, up to `|v|² / (2 range c)`. -/
theorem C95_range_rate (L X V : Vec3 ℝ) (h : 0 < len (sub X L)) :
    |doppler_factor L X V - (1 + |rangeRate L X V| / 299792.458)| * 299792.458 ≤ len V ^ 2 / (2 * len (sub X L)) := by
  rw [C45_doppler_formula]
  obtain ⟨h1, h2⟩ := one_second (sub X L) V h
  have e : sub (along X 1 V) L = along (sub X L) 1 V := by ext <;> simp only [Spec.sub, along] <;> ring
  rw [e]
  have h3 := abs_abs_sub_abs_le (len (along (sub X L) 1 V) - len (sub X L)) (rangeRate L X V)
  have h4 : |len (along (sub X L) 1 V) - len (sub X L) - rangeRate L X V| ≤ len V ^ 2 / (2 * len (sub X L)) := by
    unfold rangeRate; rw [abs_of_nonneg h1]; exact h2
  rw [show 1 + |len (along (sub X L) 1 V) - len (sub X L)| / 299792.458 - (1 + |rangeRate L X V| / 299792.458) =
    (|len (along (sub X L) 1 V) - len (sub X L)| - |rangeRate L X V|) / 299792.458 by ring, abs_div, abs_of_pos (by norm_num : (0:ℝ) < 299792.458),
    div_mul_cancel₀ _ (by norm_num)]
  exact h3.trans h4

theorem dot_le (a b : Vec3 ℝ) : |dot a b| ≤ len a * len b := by
  refine abs_le_of_sq_le_sq ?_ (mul_nonneg (Real.sqrt_nonneg _) (Real.sqrt_nonneg _))
  rw [mul_pow, len_sq, len_sq]; unfold dot
  nlinarith [sq_nonneg (a.x * b.y - a.y * b.x), sq_nonneg (a.x * b.z - a.z * b.x), sq_nonneg (a.y * b.z - a.z * b.y)]

/-- the range rates of neighbouring states -/
theorem rangeRate_near {L X X' V V' : Vec3 ℝ} {ε η : ℝ} (hX : len (sub X' X) ≤ ε) (hV : len (sub V' V) ≤ η) (h : 0 < len (sub X L))
    (h' : 0 < len (sub X' L)) : |rangeRate L X' V' - rangeRate L X V| ≤ 2 * ε * len V / len (sub X L) + η := by
  have hl := len_sub_len (sub X' L) (sub X L)
  have e0 : sub (sub X' L) (sub X L) = sub X' X := by ext <;> simp only [Spec.sub] <;> ring
  rw [e0] at hl
  set ρ := len (sub X L) with hρ
  set ρ' := len (sub X' L) with hρ'
  have e : rangeRate L X' V' - rangeRate L X V = dot (sub V' V) (sub X' L) / ρ' + dot V (sub X' X) / ρ + dot V (sub X' L) / ρ' * ((ρ - ρ') / ρ) := by
    unfold rangeRate
    rw [← hρ, ← hρ']
    have : dot V (sub X' X) = dot V (sub X' L) - dot V (sub X L) := by simp only [dot, Spec.sub]; ring
    have h2 : dot (sub V' V) (sub X' L) = dot V' (sub X' L) - dot V (sub X' L) := by simp only [dot, Spec.sub]; ring
    rw [this, h2]
    field_simp; ring
  have b1 : |dot (sub V' V) (sub X' L) / ρ'| ≤ η := by
    rw [abs_div, abs_of_pos h', div_le_iff₀ h']
    exact (dot_le _ _).trans (mul_le_mul_of_nonneg_right hV h'.le)
  have hW : 0 ≤ len V := Real.sqrt_nonneg _
  have b2 : |dot V (sub X' X) / ρ| ≤ ε * len V / ρ := by
    rw [abs_div, abs_of_pos h]
    refine div_le_div_of_nonneg_right ((dot_le _ _).trans ?_) h.le
    rw [mul_comm]; exact mul_le_mul_of_nonneg_right hX hW
  have b3 : |dot V (sub X' L) / ρ' * ((ρ - ρ') / ρ)| ≤ ε * len V / ρ := by
    rw [abs_mul, abs_div, abs_of_pos h', abs_div, abs_of_pos h, ← mul_div_assoc]
    refine div_le_div_of_nonneg_right ?_ h.le
    rw [mul_comm ε]
    refine mul_le_mul ?_ ?_ (abs_nonneg _) hW
    · rw [div_le_iff₀ h']; exact dot_le _ _
    · rw [abs_sub_comm]; exact hl.trans hX
  rw [e]
  refine (abs_add_bd (abs_add_bd b1 b2) b3).trans (le_of_eq ?_)
  ring

variable [Libm]

/-- the factor computed from a state close to another -/
theorem doppler_near (hL : Libm.Faithful) {loc pos vel : Vec3 F64} (hl : loc.Bounded) (hp : pos.Bounded)
    (hv : Within vel.x 1000 ∧ Within vel.y 1000 ∧ Within vel.z 1000) {X V : Vec3 ℝ} (hX : len (sub pos.exact X) ≤ 7.5 / 10 ^ 3)
    (hV : len (sub vel.exact V) ≤ 5 / 10 ^ 5) (h : 1.1 ≤ len (sub X loc.exact)) :
    (doppler_factor loc pos vel).Fin ∧ |(doppler_factor loc pos vel).val - (1 + |rangeRate loc.exact X V| / 299792.458)| * 299792.458 ≤
      0.51 * (len V + 0.1) ^ 2 / len (sub X loc.exact) + 1 / 10 ^ 4 := by
  obtain ⟨c1, c2⟩ := C83_doppler hL loc pos vel hl hp hv
  refine ⟨c1, ?_⟩
  have hρ : 0 < len (sub X loc.exact) := lt_of_lt_of_le (by norm_num) h
  have hd := len_sub_len (sub pos.exact loc.exact) (sub X loc.exact)
  have e0 : sub (sub pos.exact loc.exact) (sub X loc.exact) = sub pos.exact X := by ext <;> simp only [Spec.sub] <;> ring
  rw [e0] at hd
  have hd1 := (abs_le.mp (hd.trans hX)).1
  have hρ2 : 0 < len (sub pos.exact loc.exact) := by norm_num at *; linarith
  have r1 := C95_range_rate loc.exact pos.exact vel.exact hρ2
  have r2 := rangeRate_near hX hV hρ hρ2
  have hw := (abs_le.mp ((len_sub_len vel.exact V).trans hV)).2
  have hW : 0 ≤ len V := Real.sqrt_nonneg _
  have hW' : 0 ≤ len vel.exact := Real.sqrt_nonneg _
  set ρ := len (sub X loc.exact)
  set ρ' := len (sub pos.exact loc.exact)
  set W := len V
  set W' := len vel.exact
  set R := rangeRate loc.exact X V
  set R' := rangeRate loc.exact pos.exact vel.exact
  set D := (doppler_factor loc pos vel).val
  set D' := doppler_factor loc.exact pos.exact vel.exact
  have r3 := abs_abs_sub_abs_le R' R
  have k1 : |D - (1 + |R| / 299792.458)| * 299792.458 ≤ |D - D'| * 299792.458 + |D' - (1 + |R'| / 299792.458)| * 299792.458 + |R' - R| := by
    have t1 := abs_sub_le D D' (1 + |R| / 299792.458)
    have t2 := abs_sub_le D' (1 + |R'| / 299792.458) (1 + |R| / 299792.458)
    have t3 : |1 + |R'| / 299792.458 - (1 + |R| / 299792.458)| * 299792.458 = abs (|R'| - |R|) := by
      rw [show 1 + |R'| / 299792.458 - (1 + |R| / 299792.458) = (|R'| - |R|) / 299792.458 by ring, abs_div, abs_of_pos (by norm_num : (0:ℝ) < 299792.458),
        div_mul_cancel₀ _ (by norm_num)]
    have t4 : |D - (1 + |R| / 299792.458)| * 299792.458 ≤ (|D - D'| + (|D' - (1 + |R'| / 299792.458)| + |1 + |R'| / 299792.458 - (1 + |R| / 299792.458)|)) * 299792.458 := by
      gcongr; linarith
    rw [add_mul, add_mul, t3] at t4
    linarith
  have k2 : |D - D'| * 299792.458 ≤ 3 / 10 ^ 7 := by
    calc |D - D'| * 299792.458 ≤ 1 / 10 ^ 12 * 299792.458 := by gcongr
      _ ≤ _ := by norm_num
  have k3 : W' ^ 2 / (2 * ρ') ≤ 0.504 * (W + 5 / 10 ^ 5) ^ 2 / ρ := by
    rw [div_le_div_iff₀ (by positivity) hρ]
    have a1 : W' ^ 2 ≤ (W + 5 / 10 ^ 5) ^ 2 := by gcongr; linarith
    have a2 : ρ ≤ 0.504 * (2 * ρ') := by norm_num at *; linarith
    calc W' ^ 2 * ρ ≤ (W + 5 / 10 ^ 5) ^ 2 * (0.504 * (2 * ρ')) := by gcongr
      _ = _ := by ring
  have k4 : 0.504 * (W + 5 / 10 ^ 5) ^ 2 / ρ + 2 * (7.5 / 10 ^ 3) * W / ρ ≤ 0.51 * (W + 0.1) ^ 2 / ρ := by
    rw [← add_div]
    refine div_le_div_of_nonneg_right ?_ hρ.le
    nlinarith [sq_nonneg W]
  have k5 : |R' - R| ≤ 2 * (7.5 / 10 ^ 3) * W / ρ + 5 / 10 ^ 5 := r2
  have k6 : |D' - (1 + |R'| / 299792.458)| * 299792.458 ≤ W' ^ 2 / (2 * ρ') := r1
  have c : (3 : ℝ) / 10 ^ 7 + 5 / 10 ^ 5 ≤ 1 / 10 ^ 4 := by norm_num
  linarith

/-- **C95**, low orbits: for every element set of an ordinary low orbit as printed, every date and time of day within a month of the printed epoch and
every fixed point of observation, the Doppler factor of the computed state is one plus the size of the range rate of the published theory at exactly that
instant over the speed of light, up to the curvature of the path in one second. -/
theorem C95_doppler_low_f64 (hL : Libm.Faithful) (l1 l2 : Str) (v : Tle) (h : Printed l1 l2 v) (hpos : v.nddotNeg = false ∨ v.nddotMant = 0)
    (hnd : Normal v.nddotMant) (hb : Normal v.bstarMant) (hday : v.dayE8 ≤ 400 * 10 ^ 8) (hl : LowTle v 0)
    (time : DateTimeUtc) (d : Date) (hd : d.InRange) (hy : time.year = d.year) (hm : time.month = d.month) (hdd : time.day = d.day)
    (hh : time.hour < 24) (hmi : time.minute < 60) (hse : time.second < 60) (loc : Vec3 F64) (hloc : loc.Bounded) :
    ∃ (s : Satrec F64) (year nE nD : ℕ), twoline2satrec l1 l2 = .ok s ∧
      1957 ≤ year ∧ year ≤ 2056 ∧ (year : ℤ) % 100 = v.year ∧ base.after nE = ⟨year, 1, 1⟩ ∧ base.after nD = d ∧
      let τ : ℝ := ((nD : ℝ) - nE + 1 - (v.dayE8 : ℝ) / 10 ^ 8) * 1440 + time.hour * 60 + time.minute + (time.second : ℝ) / 60
      |τ| ≤ 43199 → |tleDrag v * τ| * tleLow v ^ 5 ≤ 1.99 →
        let m := (tleOrbit v).mean (tleNode v) τ
        ∃ (p : SGP4Result F64) (E : ℝ), propogate_datetime s time = some (.ok p) ∧ m.kepler E = 0 ∧ (∀ E', m.kepler E' = 0 → E' = E) ∧
          let X := vec (m.positionKm E)
          let V := vec (m.velocityKmS E)
          6378.137 * ((tleOrbit v).a * (1 - tleEcc v)) - 60 ≤ len X ∧ (1.1 ≤ len (sub X loc.exact) →
            (doppler_factor loc p.position p.velocity).Fin ∧
            |(doppler_factor loc p.position p.velocity).val - (1 + |rangeRate loc.exact X V| / 299792.458)| * 299792.458 ≤
              0.51 * (len V + 0.1) ^ 2 / len (sub X loc.exact) + 1 / 10 ^ 4) := by
  obtain ⟨s, year, nE, nD, hs, y1, y2, y3, y4, y5, hh'⟩ := C85_state_at_date_f64 hL l1 l2 v h hpos hnd hb hday hl time d hd hy hm hdd hh hmi hse
  refine ⟨s, year, nE, nD, hs, y1, y2, y3, y4, y5, ?_⟩
  intro τ h1 h2 m
  obtain ⟨p, k1, E, k2, k3, k4, k5⟩ := hh' h1 h2
  have hQ : Quiet (tleOrbit v) τ := quiet_low hL h hpos hnd hb { hl with time := h1.trans (by norm_num), drag := h2.trans (by norm_num) }
  refine ⟨p, E, k1, k2, k3, position_high hQ (tleNode v) E, ?_⟩
  intro hLen
  have hB := position_bound hQ (tleNode v) E
  have hF := hQ.fair (tleNode v)
  obtain ⟨n0, n1, n2⟩ := mean_speed hF.axis
  have hE : keplerRoot m = E := k3 _ (kepler_root m)
  have hV : ∀ j, |m.velocityKmS E j| ≤ 30 := by
    intro j
    have := (slow_shift hF 0).velocity_le j
    simp only [shift, add_zero] at this
    rw [← hE]
    refine this.trans ?_
    unfold ke at n2
    unfold kmPerRadius
    calc 2.64 * (((tleOrbit v).mean (tleNode v) τ).n * ((tleOrbit v).mean (tleNode v) τ).a * 6378.137 / 60) ≤ 2.64 * (0.07436685316871385 * 6378.137 / 60) := by gcongr
      _ ≤ _ := by norm_num
  have comp : ∀ {x : F64} {r δ A B : ℝ}, Close x r δ → |r| ≤ A → δ + A ≤ B → Within x B := by
    intro x r δ A B a1 a2 a3
    refine ⟨a1.1, ?_⟩
    have e : x.val = (x.val - r) + r := by ring
    rw [e]; exact (abs_add_bd a1.2 a2).trans a3
  refine doppler_near hL hloc ⟨comp k4.1 (hB 0) (by norm_num), comp k4.2.1 (hB 1) (by norm_num), comp k4.2.2 (hB 2) (by norm_num)⟩
    ⟨comp k5.1 (hV 0) (by norm_num), comp k5.2.1 (hV 1) (by norm_num), comp k5.2.2 (hV 2) (by norm_num)⟩
    ((len_le (by norm_num) k4.1.2 k4.2.1.2 k4.2.2.2).trans (by norm_num)) ((len_le (by norm_num) k5.1.2 k5.2.1.2 k5.2.2.2).trans (by norm_num)) hLen

/-- **C95**, deep-space orbits: the same for the sets of C93 and the part of the deep-space theory that the crate carries, at an instant within 150
microseconds of the one asked for. -/
theorem C95_doppler_deep_f64 (hL : Libm.Faithful) (l1 l2 : Str) (v : Tle) (h : Printed l1 l2 v) (hpos : v.nddotNeg = false ∨ v.nddotMant = 0)
    (hnd : Normal v.nddotMant) (hb : Normal v.bstarMant) (hl : HighTle v)
    (time : DateTimeUtc) (d : Date) (hd : d.InRange) (hy : time.year = d.year) (hm : time.month = d.month) (hdd : time.day = d.day)
    (hh : time.hour < 24) (hmi : time.minute < 60) (hse : time.second < 60) (loc : Vec3 F64) (hloc : loc.Bounded) :
    ∃ (s : Satrec F64) (year nE nD : ℕ), twoline2satrec l1 l2 = .ok s ∧
      1957 ≤ year ∧ year ≤ 2056 ∧ (year : ℤ) % 100 = v.year ∧ base.after nE = ⟨year, 1, 1⟩ ∧ base.after nD = d ∧
      let τ : ℝ := ((nD : ℝ) - nE + 1 - (v.dayE8 : ℝ) / 10 ^ 8) * 1440 + time.hour * 60 + time.minute + (time.second : ℝ) / 60
      |τ| ≤ 43199 →
        ∃ (τ' : ℝ) (p : SGP4Result F64) (k : ℕ), propogate_datetime s time = some (.ok p) ∧ |τ' - τ| ≤ 1 / 400000 ∧
          let m := carriedMean (tleOrbit v) (tleNode v) (2415079.5 + nE - 1 + (v.dayE8 : ℝ) / 10 ^ 8 - 2415020) τ'
          k ≤ 9 ∧ (∀ j < k, 1e-12 ≤ |m.correction (m.newton j)|) ∧ (k = 9 ∨ |m.correction (m.newton k)| < 1e-12) ∧
          let X := vec (m.positionKm (m.newton k))
          let V := vec (m.velocityKmS (m.newton k))
          6569 ≤ len X ∧ (1.1 ≤ len (sub X loc.exact) →
            (doppler_factor loc p.position p.velocity).Fin ∧
            |(doppler_factor loc p.position p.velocity).val - (1 + |rangeRate loc.exact X V| / 299792.458)| * 299792.458 ≤
              0.51 * (len V + 0.1) ^ 2 / len (sub X loc.exact) + 1 / 10 ^ 4) := by
  obtain ⟨s, year, nE, nD, hs, y1, y2, y3, y4, y5, hh'⟩ := deep_sized_at_date hL l1 l2 v h hpos hnd hb hl time d hd hy hm hdd hh hmi hse
  refine ⟨s, year, nE, nD, hs, y1, y2, y3, y4, y5, ?_⟩
  intro τ h1
  obtain ⟨τ', p, k1, k2, k, k3, k4, k5, k6, k7, k8, k9, k10, -⟩ := hh' h1
  refine ⟨τ', p, k, k1, k2, k3, k4, k5, k8, ?_⟩
  intro hLen
  have comp : ∀ {x : F64} {r δ A B : ℝ}, Close x r δ → |r| ≤ A → δ + A ≤ B → Within x B := by
    intro x r δ A B a1 a2 a3
    refine ⟨a1.1, ?_⟩
    have e : x.val = (x.val - r) + r := by ring
    rw [e]; exact (abs_add_bd a1.2 a2).trans a3
  refine doppler_near hL hloc (far_bounded k9 k6)
    ⟨comp k7.1 (k10 0) (by norm_num), comp k7.2.1 (k10 1) (by norm_num), comp k7.2.2 (k10 2) (by norm_num)⟩
    ((len_le (by norm_num) k6.1.2 k6.2.1.2 k6.2.2.2).trans (by norm_num)) ((len_le (by norm_num) k7.1.2 k7.2.1.2 k7.2.2.2).trans (by norm_num)) hLen

/-- `Props/F64Date.lean`'s weather satellite on 2020 February 5 at 06:30:15, seen from the point (6378, 0, 0) km: at least 355 km away, so the factor is that
of the range rate up to 0.51 (|v| + 0.1)² / range + 10⁻⁴ km/s over the speed of light. -/
theorem noaa_doppler (hL : Libm.Faithful) (time : DateTimeUtc) (h1 : time.year = 2020) (h2 : time.month = 2) (h3 : time.day = 5) (h4 : time.hour = 6)
    (h5 : time.minute = 30) (h6 : time.second = 15) :
    ∃ (s : Satrec F64) (p : SGP4Result F64) (X V : Vec3 ℝ), twoline2satrec noaaLine1 noaaLine2 = .ok s ∧ propogate_datetime s time = some (.ok p) ∧
      355 ≤ len (sub X ⟨6378, 0, 0⟩) ∧
      |(doppler_factor ⟨6378.0, 0.0, 0.0⟩ p.position p.velocity).val - (1 + |rangeRate ⟨6378, 0, 0⟩ X V| / 299792.458)| * 299792.458 ≤
        0.51 * (len V + 0.1) ^ 2 / len (sub X ⟨6378, 0, 0⟩) + 1 / 10 ^ 4 := by
  have w0 := dyadic_within (m := 0) (k := 1) 0 0 0 (B := 100000) (by norm_num) (by norm_num) (by norm_num) (by norm_num) (by norm_num)
  have w1 := dyadic_within (m := 63780) (k := 1) 6378 6378 0 (B := 100000) (by norm_num) (by norm_num) (by norm_num) (by norm_num) (by norm_num [abs_of_pos])
  obtain ⟨s, year, nE, nD, hs, y1, y2, y3, y4, y5, hh⟩ := C95_doppler_low_f64 hL _ _ _ noaa_printed (Or.inl rfl) (Or.inl rfl) (Or.inr (by decide))
    (by decide) (noaa_low (τ := 0) (by norm_num)) time ⟨2020, 2, 5⟩ ⟨by decide, by unfold Date.before base; decide, by unfold Date.before; decide⟩ h1 h2 h3 (by omega) (by omega) (by omega)
    (⟨6378.0, 0.0, 0.0⟩ : Vec3 F64) ⟨w1.1, w0.1, w0.1⟩
  have el : (⟨6378.0, 0.0, 0.0⟩ : Vec3 F64).exact = ⟨6378, 0, 0⟩ := by
    ext
    · exact w1.2
    · exact w0.2
    · exact w0.2
  rw [el] at hh
  have ey : year = 2020 := by
    have e : (noaaTle.year : ℤ) = 20 := rfl
    rw [e] at y3; omega
  have e1 := (serial_after nE).2.2
  have e2 := (serial_after nD).2.2
  rw [y4, ey] at e1
  rw [y5] at e2
  have e3 : serial ⟨2020, 2, 5⟩ = serial ⟨2020, 1, 1⟩ + 35 := by decide +kernel
  have e4 : (nD : ℝ) = nE + 35 := by exact_mod_cast (by omega : nD = nE + 35)
  have e5 : ((nD : ℝ) - nE + 1 - (noaaTle.dayE8 : ℝ) / 10 ^ 8) * 1440 + time.hour * 60 + time.minute + (time.second : ℝ) / 60 =
      (36 - 29.54791435) * 1440 + 6 * 60 + 30 + 15 / 60 := by
    rw [e4, h4, h5, h6, show (noaaTle.dayE8 : ℝ) = 2954791435 by unfold noaaTle; norm_num]; norm_num
  dsimp only at hh
  rw [e5] at hh
  have hd : tleDrag noaaTle = 59621 / 10 ^ 9 := by
    unfold tleDrag impliedValue sexp noaaTle; norm_num
  obtain ⟨p, E, k1, -, -, k2, k3⟩ := hh (by norm_num [abs_of_pos]) (by rw [hd, noaa_lowness]; norm_num [abs_of_pos])
  have hper : 6733 ≤ 6378.137 * ((tleOrbit noaaTle).a * (1 - tleEcc noaaTle)) - 60 := by have := noaa_axis; norm_num at this ⊢; linarith
  have far : ∀ X : Vec3 ℝ, 6733 ≤ len X → 355 ≤ len (sub X ⟨6378, 0, 0⟩) := by
    intro X hX
    have h := (abs_le.mp (len_sub_len X ⟨6378, 0, 0⟩)).2
    have : len ⟨6378, 0, 0⟩ ≤ 6378 := by
      refine abs_le_of_sq_le_sq' ?_ (by norm_num) |>.2
      rw [len_sq]; norm_num
    linarith
  replace k2 := hper.trans k2
  exact ⟨s, p, _, _, hs, k1, far _ k2, (k3 (le_trans (by norm_num) (far _ k2))).2⟩

end Sat
