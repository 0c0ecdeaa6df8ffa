import Verif.Props.F64InitFront
import Verif.Spec.Report3
import Verif.Spec.LowPerigee
/-!
# Orbits for which the hypotheses of the accuracy theorems follow from the elements alone

`Calm`: conditions on the elements and the time that can be read off an element set.  They imply the bounds on the drag series used in
`F64InitFront`, and the success of the run, so that `C84` needs no condition on intermediate quantities.
-/

namespace Sat.Chain
open F64 Spec Spec.R3

/-- how low the perigee of the recovered mean orbit is: 1 from 400 km up -/
noncomputable def lowOf (ρ : SGP4InitOptions ℝ) : ℝ := lowness ((ke / recoveredMotion ρ.xno ρ.xecco ρ.xinclo) ^ (2 / 3 : ℝ) * (1 - ρ.xecco))

/-- Elements of an ordinary low orbit and a time within a month of the epoch: eccentricity at most 0.43 and not within `10^-9` of the program's
threshold `10^-4`, between 6.45 and 17.98 revolutions per day, inclination below 171 degrees, perigee of the (recovered) mean orbit at least
240 km above the equatorial radius, and a drag term that is not extreme for the time span and the eccentricity (below 400 km it counts `lowOf ^ 5` times). -/
structure Calm (ρ : SGP4InitOptions ℝ) (τ : ℝ) : Prop where
  ecc_lo : 0 ≤ ρ.xecco
  ecc_hi : ρ.xecco ≤ 43 / 10 ^ 2
  ecc_side : ρ.xecco + 1 / 10 ^ 9 ≤ 1 / 10 ^ 4 ∨ 1 / 10 ^ 4 + 1 / 10 ^ 9 ≤ ρ.xecco ∧ |ρ.xbstar| * lowOf ρ ^ 5 ≤ 5000 * ρ.xecco ^ 2
  mot_lo : 281 / 10 ^ 4 ≤ ρ.xno
  mot_hi : ρ.xno ≤ 785 / 10 ^ 4
  incl_hi : |ρ.xinclo| ≤ 315 / 10 ^ 2
  incl_cos : 1 / 10 ^ 2 ≤ 1 + Real.cos ρ.xinclo
  argp_hi : |ρ.xargpo| ≤ 63 / 10
  node_hi : |ρ.xnodeo| ≤ 63 / 10
  anom_hi : |ρ.xmo| ≤ 63 / 10
  bstar_hi : |ρ.xbstar| * lowOf ρ ^ 5 ≤ 1 / 10 ^ 3
  perigee : 1 + 240 / 6378.137 ≤ (ke / recoveredMotion ρ.xno ρ.xecco ρ.xinclo) ^ (2 / 3 : ℝ) * (1 - ρ.xecco)
  time_hi : |τ| ≤ 43200
  drag_hi : |ρ.xbstar * τ| * lowOf ρ ^ 5 ≤ 2

/-- Doubles that are the elements up to rounding: relative errors of at most two units in the last place for eccentricity and drag term (or below
`10^-46`), five for the mean motion, and the errors of a multiplication by `pi / 180` for the angles. -/
structure Rounded (o : SGP4InitOptions F64) (ρ : SGP4InitOptions ℝ) : Prop where
  ecc : Near o.xecco ρ.xecco (23 / 10 ^ 17) (1 / 10 ^ 46)
  bstar : Near o.xbstar ρ.xbstar (23 / 10 ^ 17) (1 / 10 ^ 46)
  mot : Near o.xno ρ.xno (6 / 10 ^ 16) 0
  incl : Near o.xinclo ρ.xinclo 0 (2 / 10 ^ 15)
  argp : Near o.xargpo ρ.xargpo 0 (4 / 10 ^ 15)
  node : Near o.xnodeo ρ.xnodeo 0 (4 / 10 ^ 15)
  anom : Near o.xmo ρ.xmo 0 (4 / 10 ^ 15)

theorem no_recovered {ρ : SGP4InitOptions ℝ} (he : 0 ≤ ρ.xecco ∧ ρ.xecco < 1) : no ρ = recoveredMotion ρ.xno ρ.xecco ρ.xinclo := by
  have hb : (0:ℝ) ≤ 1 - ρ.xecco ^ 2 := by nlinarith [he.1, he.2]
  have e1 : (XKE : ℝ) = ke := rfl
  have e2 : (X2O3 : ℝ) = 2 / 3 := by unfold X2O3; norm_num
  have e3 : (J2 : ℝ) = 2 * R3.k2 := by unfold J2 R3.k2 j2; norm_num
  have e4 : (1.0 : ℝ) - ρ.xecco * ρ.xecco = Real.sqrt (1 - ρ.xecco ^ 2) ^ 2 := by
    rw [Real.sq_sqrt hb]; norm_num; ring
  have e5 : Real.sqrt ((1.0 : ℝ) - ρ.xecco * ρ.xecco) = Real.sqrt (1 - ρ.xecco ^ 2) := by
    congr 1; norm_num; ring
  simp only [no, del2, adel, del, d1, ak, ci2, ci, rt, ome, recoveredMotion, real_powf, real_cos, real_sqrt]
  rw [e5, e4, e1, e2, e3]
  generalize Real.sqrt (1 - ρ.xecco ^ 2) = β
  generalize Real.cos ρ.xinclo = θ
  generalize (ke / ρ.xno) ^ (2 / 3 : ℝ) = a1
  generalize R3.k2 = k
  have hd : (0.75 : ℝ) * (2 * k) * (3.0 * (θ * θ) - 1.0) / (β * β ^ 2) / (a1 * a1) = 3 / 2 * k / a1 ^ 2 * ((3 * θ ^ 2 - 1) / β ^ 3) := by
    norm_num; ring
  rw [hd]
  generalize 3 / 2 * k / a1 ^ 2 * ((3 * θ ^ 2 - 1) / β ^ 3) = d
  have ha : a1 * ((1.0 : ℝ) - d * d - d * (1.0 / 3.0 + 134.0 * d * d / 81.0)) = a1 * (1 - d / 3 - d ^ 2 - 134 / 81 * d ^ 3) := by
    norm_num1; ring
  rw [ha]
  generalize a1 * (1 - d / 3 - d ^ 2 - 134 / 81 * d ^ 3) = a0
  congr 1
  norm_num; ring

section
variable [Libm] {o : SGP4InitOptions F64} {ρ : SGP4InitOptions ℝ} {s0 : Satrec F64} {r0 : Satrec ℝ} {t : F64} {τ : ℝ}

omit [Libm] in
theorem calm_rp_eq (h : Calm ρ τ) : rp ρ = (ke / recoveredMotion ρ.xno ρ.xecco ρ.xinclo) ^ (2 / 3 : ℝ) * (1 - ρ.xecco) := by
  show ((XKE : ℝ) / no ρ) ^ (X2O3 : ℝ) * ((1.0 : ℝ) - ρ.xecco) = _
  rw [no_recovered ⟨h.ecc_lo, lt_of_le_of_lt h.ecc_hi (by norm_num)⟩, show (X2O3 : ℝ) = 2 / 3 by unfold X2O3; norm_num,
    show (XKE : ℝ) = ke from rfl, show (1.0 : ℝ) = 1 by norm_num]

omit [Libm] in
theorem calm_rp (h : Calm ρ τ) : 1 + 240 / 6378.137 ≤ rp ρ := by
  rw [calm_rp_eq h]; exact h.perigee

omit [Libm] in
theorem low_one (ρ : SGP4InitOptions ℝ) : 1 ≤ lowOf ρ := one_le_lowness _

omit [Libm] in
theorem low_le (h : Calm ρ τ) : lowOf ρ ≤ 1.988 := lowness_le h.perigee

omit [Libm] in
theorem low_mul (h : Calm ρ τ) : 322 / 6378.137 ≤ lowOf ρ * (rp ρ - ss) := by
  rw [calm_rp_eq h, ss_val]; exact lowness_mul h.perigee

/-- the elements with the drag term left out -/
def still {F : Type} [Arith F] (o : SGP4InitOptions F) : SGP4InitOptions F := { o with xbstar := 0.0 }

theorem elements_still (h : Calm ρ τ) (hr : Rounded o ρ) : Elements (still o) (still ρ) := by
  have z := Q.int 0 true 1 0 (by norm_num)
  refine { ecc_lo := h.ecc_lo, ecc_hi := h.ecc_hi.trans (by norm_num), ecc_side := h.ecc_side.imp id And.left, mot_lo := h.mot_lo, mot_hi := h.mot_hi, incl_hi := h.incl_hi,
           incl_cos := h.incl_cos, argp_hi := h.argp_hi, node_hi := h.node_hi, anom_hi := h.anom_hi, bstar_hi := ?_, perigee := ?_, cc1_hi := ?_,
           ecc := hr.ecc, bstar := ?_, mot := hr.mot, incl := hr.incl, argp := hr.argp, node := hr.node, anom := hr.anom }
  · show |(0.0 : ℝ)| ≤ 1
    norm_num
  · have := calm_rp h
    exact le_trans (by norm_num) this
  · show |(0.0 : ℝ) * cc2 ρ| ≤ _
    norm_num
  · refine ⟨z.fin, ?_⟩
    show |(F64.sci 0 true 1).val - (0.0 : ℝ)| ≤ _ * |(0.0 : ℝ)| + _
    have := z.err
    norm_num at *
    rw [this]; norm_num

/-! ## The density terms at a perigee of 240 km or more -/

theorem tsi_calm (hL : Libm.Faithful) (h : Calm ρ τ) (hr : Rounded o ρ) : 0 < tsi ρ ∧ tsi ρ ≤ 199 / 10 * lowOf ρ := by
  have he := elements_still h hr
  have hp := calm_rp h
  have h1 : rp ρ ≤ ao ρ := by
    have h0 : 0 ≤ (ao ρ - ss) * eta ρ := (mul_nonneg (y_pos hL he).le (eta_nonneg hL he) :)
    have h2 : (ao ρ - ss) * eta ρ = ao ρ - rp ρ := (eta_mul hL he :)
    linarith
  have hy : 0 < ao ρ - ss := (y_pos hL he :)
  refine ⟨(tsi_pos hL he :), ?_⟩
  have hm := low_mul h
  have hl := low_one ρ
  have h3 : lowOf ρ * (rp ρ - ss) ≤ lowOf ρ * (ao ρ - ss) := mul_le_mul_of_nonneg_left (by linarith) (by linarith)
  rw [tsi_eq, div_le_iff₀ hy]
  norm_num at hm ⊢; linarith

/-- `coef1` is at most the fourth power of `42 km / (perigee height - 78 km)` -/
theorem coef1_calm (hL : Libm.Faithful) (h : Calm ρ τ) (hr : Rounded o ρ) : 0 ≤ coef ρ ∧ coef ρ ≤ coef1 ρ ∧ coef1 ρ ≤ 29 / 10 ^ 5 * lowOf ρ ^ 4 := by
  have he := elements_still h hr
  have hp := calm_rp h
  obtain ⟨t0, t1⟩ := tsi_calm hL h hr
  have p0 : 0 < psi ρ := (psi_pos hL he :)
  have p1 : psi ρ ≤ 1 := (psi_le hL he :)
  have e0 : 0 ≤ eta ρ := (eta_nonneg hL he :)
  have e1 : eta ρ < 1 := (eta_lt hL he :)
  have hy : 0 < ao ρ - ss := (y_pos hL he :)
  have hm : (ao ρ - ss) * eta ρ = ao ρ - rp ρ := (eta_mul hL he :)
  have pe : psi ρ = 1 - eta ρ * eta ρ := (psi_eq hL he :)
  have k1 : (1 - eta ρ) * (ao ρ - ss) = rp ρ - ss := by linarith
  have hps : 1 - eta ρ ≤ psi ρ := by rw [pe]; nlinarith
  have hpw : psi ρ ^ 4 ≤ psi ρ ^ (3.5 : ℝ) := by
    rw [← Real.rpow_natCast]
    exact Real.rpow_le_rpow_of_exponent_ge p0 p1 (by norm_num)
  have hpw1 : psi ρ ^ (3.5 : ℝ) ≤ 1 := Real.rpow_le_one p0.le p1 (by norm_num)
  have hpw0 : 0 < psi ρ ^ (3.5 : ℝ) := Real.rpow_pos_of_pos p0 _
  have q0 : 0 < (qz : ℝ) := by
    show 0 < (qt : ℝ) * qt * qt * qt
    have : (0 : ℝ) < qt := by show (0 : ℝ) < ((120.0 : ℝ) - 78.0) / EARTH_RADIUS; rw [ER_val]; norm_num
    positivity
  have ec : coef ρ = qz * tsi ρ ^ 4 := by
    show qz * powi4 (tsi ρ) = _
    unfold powi4; ring
  have c0 : 0 ≤ coef ρ := by rw [ec]; positivity
  have ec1 : coef1 ρ = coef ρ / psi ρ ^ (3.5 : ℝ) := rfl
  have hg : 0 < 1 - eta ρ := by linarith
  have ht : tsi ρ * (ao ρ - ss) = 1 := by rw [tsi_eq]; field_simp
  have hrs := low_mul h
  have hl := low_one ρ
  have hl0 : 0 < lowOf ρ := by linarith
  have h4 : tsi ρ ^ 4 * (rp ρ - ss) ^ 4 ≤ psi ρ ^ (3.5 : ℝ) := by
    have : tsi ρ ^ 4 * (rp ρ - ss) ^ 4 = (1 - eta ρ) ^ 4 := by
      rw [← mul_pow, ← k1, show tsi ρ * ((1 - eta ρ) * (ao ρ - ss)) = (1 - eta ρ) * (tsi ρ * (ao ρ - ss)) by ring, ht, mul_one]
    rw [this]
    exact (pow_le_pow_left₀ hg.le hps 4).trans hpw
  refine ⟨c0, ?_, ?_⟩
  · rw [ec1, le_div_iff₀ hpw0]
    calc coef ρ * psi ρ ^ (3.5 : ℝ) ≤ coef ρ * 1 := mul_le_mul_of_nonneg_left hpw1 c0
      _ = _ := mul_one _
  · rw [ec1, div_le_iff₀ hpw0, ec]
    have h5 : tsi ρ ^ 4 * (322 / 6378.137) ^ 4 ≤ lowOf ρ ^ 4 * psi ρ ^ (3.5 : ℝ) := by
      refine (mul_le_mul_of_nonneg_left (pow_le_pow_left₀ (by norm_num) hrs 4) (by positivity)).trans ?_
      rw [mul_pow, show tsi ρ ^ 4 * (lowOf ρ ^ 4 * (rp ρ - ss) ^ 4) = lowOf ρ ^ 4 * (tsi ρ ^ 4 * (rp ρ - ss) ^ 4) by ring]
      exact mul_le_mul_of_nonneg_left h4 (by positivity)
    have eq : (qz : ℝ) = (42 / 6378.137) ^ 4 := by
      show ((120.0 : ℝ) - 78.0) / EARTH_RADIUS * (((120.0 : ℝ) - 78.0) / EARTH_RADIUS) * (((120.0 : ℝ) - 78.0) / EARTH_RADIUS) * (((120.0 : ℝ) - 78.0) / EARTH_RADIUS) = _
      rw [ER_val]; norm_num
    have h6 : (42 / 6378.137 : ℝ) ^ 4 ≤ 29 / 10 ^ 5 * (322 / 6378.137) ^ 4 := by norm_num
    have h7 := mul_le_mul_of_nonneg_right h6 (show 0 ≤ tsi ρ ^ 4 by positivity)
    rw [eq]
    have h8 : 29 / 10 ^ 5 * (322 / 6378.137) ^ 4 * tsi ρ ^ 4 ≤ 29 / 10 ^ 5 * lowOf ρ ^ 4 * psi ρ ^ (3.5 : ℝ) := by
      rw [show (29 / 10 ^ 5 * (322 / 6378.137) ^ 4 * tsi ρ ^ 4 : ℝ) = 29 / 10 ^ 5 * (tsi ρ ^ 4 * (322 / 6378.137) ^ 4) by ring, mul_assoc]
      exact mul_le_mul_of_nonneg_left h5 (by norm_num)
    exact h7.trans h8

theorem cc2_calm (hL : Libm.Faithful) (h : Calm ρ τ) (hr : Rounded o ρ) : |cc2 ρ| ≤ 234 / 10 ^ 6 * lowOf ρ ^ 4 := by
  have he := elements_still h hr
  obtain ⟨c0, c1, c2⟩ := coef1_calm hL h hr
  have hb : |b2 ρ| ≤ 102 / 10 ^ 1 := ((i_b2 hL he).mag :)
  have hn : |no ρ| ≤ 788 / 10 ^ 4 := ((i_no hL he).top :)
  show |coef1 ρ * no ρ * b2 ρ| ≤ _
  rw [abs_mul, abs_mul, abs_of_nonneg (c0.trans c1)]
  have hl := low_one ρ
  have hl0 : 0 < lowOf ρ ^ 4 := by positivity
  have h1 := mul_le_mul c2 hn (abs_nonneg _) (by positivity)
  exact (mul_le_mul h1 hb (abs_nonneg _) (by positivity)).trans (by norm_num; linarith)

theorem cc1_calm (hL : Libm.Faithful) (h : Calm ρ τ) (hr : Rounded o ρ) {τ' : ℝ} (hτ : |ρ.xbstar * τ'| * lowOf ρ ^ 5 ≤ 2) :
    |cc1 ρ * τ'| ≤ 468 / 10 ^ 6 ∧ |cc1 ρ * τ'| * lowOf ρ ≤ 468 / 10 ^ 6 := by
  have e : cc1 ρ * τ' = ρ.xbstar * τ' * cc2 ρ := by show ρ.xbstar * cc2 ρ * τ' = _; ring
  rw [e]
  exact ⟨(scaled_mul (low_one ρ) hτ (cc2_calm hL h hr) (by norm_num) (by norm_num)).trans (by norm_num),
    (scaled_mul_spare (low_one ρ) hτ (cc2_calm hL h hr) (by norm_num)).trans (by norm_num)⟩

/-- the elements meet the conditions of `F64Init` -/
theorem elements_calm (hL : Libm.Faithful) (h : Calm ρ τ) (hr : Rounded o ρ) : Elements o ρ := by
  refine { ecc_lo := h.ecc_lo, ecc_hi := h.ecc_hi.trans (by norm_num), ecc_side := h.ecc_side.imp id And.left, mot_lo := h.mot_lo, mot_hi := h.mot_hi, incl_hi := h.incl_hi,
           incl_cos := h.incl_cos, argp_hi := h.argp_hi, node_hi := h.node_hi, anom_hi := h.anom_hi, bstar_hi := (scaled_le (low_one ρ) h.bstar_hi).trans (by norm_num),
           perigee := le_trans (by norm_num) (calm_rp h), cc1_hi := ?_, ecc := hr.ecc, bstar := hr.bstar, mot := hr.mot, incl := hr.incl, argp := hr.argp,
           node := hr.node, anom := hr.anom }
  have := (cc1_calm hL h hr (τ' := 1) (by rw [mul_one]; exact h.bstar_hi.trans (by norm_num))).1
  rw [mul_one] at this
  exact this.trans (by norm_num)

/-! ## The drag series -/

omit [Libm] in
theorem prod_le {x y a b : ℝ} (hx : |x| ≤ a) (hy : |y| ≤ b) : |x * y| ≤ a * b := by
  rw [abs_mul]; exact mul_le_mul hx hy (abs_nonneg _) ((abs_nonneg _).trans hx)

theorem series_calm (hL : Libm.Faithful) (h : Calm ρ τ) (hr : Rounded o ρ) {τ' : ℝ} (h1 : |τ'| ≤ 43200) (h2 : |ρ.xbstar * τ'| * lowOf ρ ^ 5 ≤ 2) :
    |cc1 ρ * τ'| ≤ 468 / 10 ^ 6 ∧ |d2 ρ * (τ' * τ')| ≤ 35 / 10 ^ 6 ∧ |d3 ρ * (τ' * τ' * τ')| ≤ 4 / 10 ^ 6 ∧ |d4 ρ * (τ' * τ' * τ' * τ')| ≤ 1 / 10 ^ 6 ∧
    |t2cof ρ * (τ' * τ')| ≤ 40 ∧ |t3cof ρ * (τ' * τ' * τ')| ≤ 2 ∧ |τ' * τ' * τ' * τ'| * |t4cof ρ| ≤ 2 ∧ |τ' * τ' * τ' * τ'| * |τ' * t5cof ρ| ≤ 2 := by
  have he := elements_still h hr
  obtain ⟨t0, t1⟩ := tsi_calm hL h hr
  have aL : 0 < ao ρ := (ao_pos hL he :)
  have aH : ao ρ ≤ 192 / 10 ^ 2 := ((ao_bounds0 hL he).2 :)
  have ha : |ao ρ| ≤ 192 / 10 ^ 2 := by rwa [abs_of_pos aL]
  have hs : |(ss : ℝ)| ≤ 102 / 10 ^ 2 := by rw [ss_val, abs_of_pos (by norm_num)]; norm_num
  obtain ⟨hc, hc'⟩ := cc1_calm hL h hr h2
  have hl := low_one ρ
  have ht : |tsi ρ * (cc1 ρ * τ')| ≤ 199 / 10 * (468 / 10 ^ 6) := by
    rw [abs_mul, abs_of_pos t0]
    calc tsi ρ * |cc1 ρ * τ'| ≤ 199 / 10 * lowOf ρ * |cc1 ρ * τ'| := mul_le_mul_of_nonneg_right t1 (abs_nonneg _)
      _ = 199 / 10 * (|cc1 ρ * τ'| * lowOf ρ) := by ring
      _ ≤ _ := mul_le_mul_of_nonneg_left hc' (by norm_num)
  have w1 : |17 * ao ρ + ss| ≤ 338 / 10 := by
    rw [abs_le] at *; constructor <;> norm_num at * <;> linarith
  have w2 : |221 * ao ρ + 31 * ss| ≤ 457 := by
    rw [abs_le] at *; constructor <;> norm_num at * <;> linarith
  -- the series in powers of `cc1 * τ`
  have x2 : |d2 ρ * (τ' * τ')| ≤ 35 / 10 ^ 6 := by
    have e : d2 ρ * (τ' * τ') = 4 * (ao ρ * (tsi ρ * (cc1 ρ * τ'))) * (cc1 ρ * τ') := by
      show (4.0 : ℝ) * ao ρ * tsi ρ * (cc1 ρ * cc1 ρ) * (τ' * τ') = _; norm_num; ring
    rw [e]
    exact (prod_le (prod_le (show |(4 : ℝ)| ≤ 4 by norm_num) (prod_le ha ht)) hc).trans (by norm_num)
  have xt : |dtemp ρ * (τ' * τ' * τ')| ≤ 11 / 10 ^ 8 := by
    have e : dtemp ρ * (τ' * τ' * τ') = (d2 ρ * (τ' * τ')) * (tsi ρ * (cc1 ρ * τ')) * (1 / 3) := by
      show d2 ρ * tsi ρ * cc1 ρ / (3.0 : ℝ) * (τ' * τ' * τ') = _; norm_num; ring
    rw [e]
    exact (prod_le (prod_le x2 ht) (show |(1 / 3 : ℝ)| ≤ 1 / 3 by norm_num)).trans (by norm_num)
  have x3 : |d3 ρ * (τ' * τ' * τ')| ≤ 4 / 10 ^ 6 := by
    have e : d3 ρ * (τ' * τ' * τ') = (17 * ao ρ + ss) * (dtemp ρ * (τ' * τ' * τ')) := by
      show ((17.0 : ℝ) * ao ρ + ss) * dtemp ρ * (τ' * τ' * τ') = _; norm_num; ring
    rw [e]
    exact (prod_le w1 xt).trans (by norm_num)
  have x4 : |d4 ρ * (τ' * τ' * τ' * τ')| ≤ 1 / 10 ^ 6 := by
    have e : d4 ρ * (τ' * τ' * τ' * τ') = 1 / 2 * (dtemp ρ * (τ' * τ' * τ')) * ao ρ * (tsi ρ * (cc1 ρ * τ')) * (221 * ao ρ + 31 * ss) := by
      show (0.5 : ℝ) * dtemp ρ * ao ρ * tsi ρ * ((221.0 : ℝ) * ao ρ + (31.0 : ℝ) * ss) * cc1 ρ * (τ' * τ' * τ' * τ') = _
      have l : (0.5 : ℝ) = 1 / 2 ∧ (221.0 : ℝ) = 221 ∧ (31.0 : ℝ) = 31 := by norm_num
      rw [l.1, l.2.1, l.2.2]; ring
    rw [e]
    exact (prod_le (prod_le (prod_le (prod_le (show |(1 / 2 : ℝ)| ≤ 1 / 2 by norm_num) xt) ha) ht) w2).trans (by norm_num)
  refine ⟨hc, x2, x3, x4, ?_, ?_, ?_, ?_⟩
  · have e : t2cof ρ * (τ' * τ') = 3 / 2 * (cc1 ρ * τ') * τ' := by show (1.5 : ℝ) * cc1 ρ * (τ' * τ') = _; norm_num; ring
    rw [e]
    exact (prod_le (prod_le (show |(3 / 2 : ℝ)| ≤ 3 / 2 by norm_num) hc) h1).trans (by norm_num)
  · have e : t3cof ρ * (τ' * τ' * τ') = (d2 ρ * (τ' * τ') + 2 * ((cc1 ρ * τ') * (cc1 ρ * τ'))) * τ' := by
      show (d2 ρ + (2.0 : ℝ) * (cc1 ρ * cc1 ρ)) * (τ' * τ' * τ') = _; norm_num; ring
    rw [e]
    exact (prod_le ((abs_add_le _ _).trans (add_le_add x2 (prod_le (show |(2 : ℝ)| ≤ 2 by norm_num) (prod_le hc hc)))) h1).trans (by norm_num)
  · rw [← abs_mul]
    have e : τ' * τ' * τ' * τ' * t4cof ρ = 1 / 4 * (3 * (d3 ρ * (τ' * τ' * τ')) + (cc1 ρ * τ') * (12 * (d2 ρ * (τ' * τ')) + 10 * ((cc1 ρ * τ') * (cc1 ρ * τ')))) * τ' := by
      show τ' * τ' * τ' * τ' * ((0.25 : ℝ) * ((3.0 : ℝ) * d3 ρ + cc1 ρ * ((12.0 : ℝ) * d2 ρ + (10.0 : ℝ) * (cc1 ρ * cc1 ρ)))) = _
      have l : (0.25 : ℝ) = 1 / 4 ∧ (3.0 : ℝ) = 3 ∧ (12.0 : ℝ) = 12 ∧ (10.0 : ℝ) = 10 := by norm_num
      rw [l.1, l.2.1, l.2.2.1, l.2.2.2]; ring
    rw [e]
    have a1 := (abs_add_le _ _).trans (add_le_add (prod_le (show |(12 : ℝ)| ≤ 12 by norm_num) x2) (prod_le (show |(10 : ℝ)| ≤ 10 by norm_num) (prod_le hc hc)))
    have a2 := (abs_add_le _ _).trans (add_le_add (prod_le (show |(3 : ℝ)| ≤ 3 by norm_num) x3) (prod_le hc a1))
    exact (prod_le (prod_le (show |(1 / 4 : ℝ)| ≤ 1 / 4 by norm_num) a2) h1).trans (by norm_num)
  · rw [← abs_mul]
    have e : τ' * τ' * τ' * τ' * (τ' * t5cof ρ) = 1 / 5 * (3 * (d4 ρ * (τ' * τ' * τ' * τ')) + 12 * (cc1 ρ * τ') * (d3 ρ * (τ' * τ' * τ')) +
        6 * (d2 ρ * (τ' * τ')) * (d2 ρ * (τ' * τ')) + 15 * ((cc1 ρ * τ') * (cc1 ρ * τ')) * (2 * (d2 ρ * (τ' * τ')) + (cc1 ρ * τ') * (cc1 ρ * τ'))) * τ' := by
      show τ' * τ' * τ' * τ' * (τ' * ((0.2 : ℝ) * ((3.0 : ℝ) * d4 ρ + (12.0 : ℝ) * cc1 ρ * d3 ρ + (6.0 : ℝ) * d2 ρ * d2 ρ +
        (15.0 : ℝ) * (cc1 ρ * cc1 ρ) * ((2.0 : ℝ) * d2 ρ + cc1 ρ * cc1 ρ)))) = _
      have l : (0.2 : ℝ) = 1 / 5 ∧ (3.0 : ℝ) = 3 ∧ (12.0 : ℝ) = 12 ∧ (6.0 : ℝ) = 6 ∧ (15.0 : ℝ) = 15 ∧ (2.0 : ℝ) = 2 := by norm_num
      rw [l.1, l.2.1, l.2.2.1, l.2.2.2.1, l.2.2.2.2.1, l.2.2.2.2.2]; ring
    rw [e]
    have a0 := (abs_add_le _ _).trans (add_le_add (prod_le (show |(2 : ℝ)| ≤ 2 by norm_num) x2) (prod_le hc hc))
    have a1 := prod_le (prod_le (show |(15 : ℝ)| ≤ 15 by norm_num) (prod_le hc hc)) a0
    have a2 := prod_le (prod_le (show |(6 : ℝ)| ≤ 6 by norm_num) x2) x2
    have a3 := prod_le (prod_le (show |(12 : ℝ)| ≤ 12 by norm_num) hc) x3
    have a4 := prod_le (show |(3 : ℝ)| ≤ 3 by norm_num) x4
    have a5 := (abs_add_le _ _).trans (add_le_add ((abs_add_le _ _).trans (add_le_add ((abs_add_le _ _).trans (add_le_add a4 a3)) a2)) a1)
    exact (prod_le (prod_le (show |(1 / 5 : ℝ)| ≤ 1 / 5 by norm_num) a5) h1).trans (by norm_num)

theorem omg_calm (hL : Libm.Faithful) (h : Calm ρ τ) (hr : Rounded o ρ) {τ' : ℝ} (h2 : |ρ.xbstar * τ'| * lowOf ρ ^ 5 ≤ 2) : |ρ.xbstar| * cc3s ρ * |τ'| ≤ 4 := by
  have he := elements_still h hr
  obtain ⟨t0, t1⟩ := tsi_calm hL h hr
  obtain ⟨c0, c1, c2⟩ := coef1_calm hL h hr
  have hl := low_one ρ
  have hl2 := low_le h
  have l4 : lowOf ρ ^ 4 ≤ 1.988 ^ 4 := pow_le_pow_left₀ (by linarith) hl2 4
  have ht : |tsi ρ| ≤ 199 / 10 * 1.988 := by rw [abs_of_pos t0]; exact t1.trans (mul_le_mul_of_nonneg_left hl2 (by norm_num))
  have hn : |no ρ| ≤ 788 / 10 ^ 4 := ((i_no hL he).top :)
  have hcs : |cc3s ρ| ≤ 1 := by
    unfold cc3s
    split
    · rename_i hc
      have hge : 1 / 10 ^ 4 ≤ |ρ.xecco| := by
        rw [real_flt, decide_eq_true_eq] at hc
        refine le_trans ?_ (le_abs_self _)
        norm_num at *; linarith
      rw [abs_of_nonneg (by positivity), mul_one, div_le_one (lt_of_lt_of_le (by norm_num) hge)]
      refine le_trans ?_ hge
      have hj : |(J3OJ2 : ℝ)| ≤ 24 / 10 ^ 4 := q_J3OJ2.mag.trans (by norm_num)
      have hco : |coef ρ| ≤ 29 / 10 ^ 5 * 1.988 ^ 4 := by rw [abs_of_nonneg c0]; exact (c1.trans c2).trans (mul_le_mul_of_nonneg_left l4 (by norm_num))
      exact (prod_le (prod_le (prod_le (prod_le (show |(-2.0 : ℝ)| ≤ 2 by norm_num) hco) ht) hj) hn).trans (by norm_num)
    · norm_num
  rw [show |ρ.xbstar| * cc3s ρ * |τ'| = |ρ.xbstar * τ'| * cc3s ρ by rw [abs_mul]; ring]
  have h0 := mul_le_mul (scaled_le hl h2) ((le_abs_self _).trans hcs) (by unfold cc3s; split <;> positivity) (by norm_num)
  exact h0.trans (by norm_num)

theorem cc5_calm (hL : Libm.Faithful) (h : Calm ρ τ) (hr : Rounded o ρ) : |ρ.xbstar * cc5 ρ| ≤ 1 / 10 ^ 5 := by
  have he := elements_still h hr
  obtain ⟨c0, c1, c2⟩ := coef1_calm hL h hr
  have hl := low_one ρ
  have hco : |coef1 ρ| ≤ 29 / 10 ^ 5 * lowOf ρ ^ 4 := by rw [abs_of_nonneg (c0.trans c1)]; exact c2
  have aL : 0 < ao ρ := (ao_pos hL he :)
  have aH : ao ρ ≤ 192 / 10 ^ 2 := ((ao_bounds0 hL he).2 :)
  have ha : |ao ρ| ≤ 192 / 10 ^ 2 := by rwa [abs_of_pos aL]
  have ho : |ome ρ| ≤ 1 := ((i_ome he).mag :)
  have hq : |etasq ρ| ≤ 1 := ((i_etasq hL he).mag :)
  have hee : |eeta ρ| ≤ 44 / 10 ^ 2 := ((i_eeta hL he).mag :)
  have b1 := (abs_add_le _ _).trans (add_le_add hq hee)
  have b2 := (abs_add_le _ _).trans (add_le_add ((abs_add_le _ _).trans (add_le_add (show |(1.0 : ℝ)| ≤ 1 by norm_num) (prod_le (show |(2.75 : ℝ)| ≤ 2.75 by norm_num) b1))) (prod_le hee hq))
  have b3 : |cc5 ρ| ≤ _ := prod_le (prod_le (prod_le (prod_le (show |(2.0 : ℝ)| ≤ 2 by norm_num) hco) ha) ho) b2
  exact (scaled_mul hl h.bstar_hi (b3.trans (le_of_eq (b := 2 * (29 / 10 ^ 5) * (192 / 10 ^ 2) * 1 * (1 + 2.75 * (1 + 44 / 10 ^ 2) + 44 / 10 ^ 2 * 1) * lowOf ρ ^ 4) (by ring))) (by norm_num) (by norm_num)).trans (by norm_num)

theorem xmcof_calm (hL : Libm.Faithful) (h : Calm ρ τ) (hr : Rounded o ρ) : |xmcof ρ| ≤ 5 / 10 ^ 2 := by
  have he := elements_still h hr
  obtain ⟨t0, t1⟩ := tsi_calm hL h hr
  have aL : 0 < ao ρ := (ao_pos hL he :)
  have a1 : 1 + 240 / 6378.137 ≤ ao ρ := (ao_lo hL he :)
  show |if ρ.xecco >. (1.0e-4 : ℝ) then (-(X2O3 : ℝ) * coef ρ * ρ.xbstar) / eeta ρ else 0.0| ≤ _
  split
  · rename_i hc
    rw [real_flt, decide_eq_true_eq] at hc
    have hb : |ρ.xbstar| * lowOf ρ ^ 5 ≤ 5000 * ρ.xecco ^ 2 := by
      rcases h.ecc_side with hs | hs
      · exfalso; norm_num at *; linarith
      · exact hs.2
    have e0 : 0 < ρ.xecco := lt_trans (by norm_num) hc
    have ex : (X2O3 : ℝ) = 2 / 3 := by unfold X2O3; norm_num
    have eq : eeta ρ = ao ρ * tsi ρ * ρ.xecco ^ 2 := by show ρ.xecco * (ao ρ * ρ.xecco * tsi ρ) = _; ring
    have ep : 0 < eeta ρ := by rw [eq]; positivity
    have ec : coef ρ = qz * tsi ρ ^ 4 := by show qz * powi4 (tsi ρ) = _; unfold powi4; ring
    have hz : (qz : ℝ) = (42 / 6378.137) ^ 4 := by
      show ((120.0 : ℝ) - 78.0) / EARTH_RADIUS * (((120.0 : ℝ) - 78.0) / EARTH_RADIUS) * (((120.0 : ℝ) - 78.0) / EARTH_RADIUS) * (((120.0 : ℝ) - 78.0) / EARTH_RADIUS) = _
      rw [ER_val]; norm_num
    have q0 : (0 : ℝ) ≤ qz := by rw [hz]; positivity
    rw [abs_div, abs_of_pos ep, div_le_iff₀ ep, abs_mul, abs_mul, abs_neg, ex, ec, abs_of_nonneg (show (0 : ℝ) ≤ qz * tsi ρ ^ 4 by positivity), eq]
    have hl := low_one ρ
    have l3 : lowOf ρ ^ 3 ≤ lowOf ρ ^ 5 := pow_le_pow_right₀ hl (by norm_num)
    have t3 : tsi ρ ^ 3 ≤ (199 / 10) ^ 3 * lowOf ρ ^ 5 := by
      refine (pow_le_pow_left₀ t0.le t1 3).trans ?_
      rw [mul_pow]; exact mul_le_mul_of_nonneg_left l3 (by norm_num)
    have g0 : tsi ρ ^ 3 * |ρ.xbstar| ≤ (199 / 10) ^ 3 * (5000 * ρ.xecco ^ 2) :=
      calc tsi ρ ^ 3 * |ρ.xbstar| ≤ (199 / 10) ^ 3 * lowOf ρ ^ 5 * |ρ.xbstar| := mul_le_mul_of_nonneg_right t3 (abs_nonneg _)
        _ = (199 / 10) ^ 3 * (|ρ.xbstar| * lowOf ρ ^ 5) := by ring
        _ ≤ _ := mul_le_mul_of_nonneg_left hb (by norm_num)
    have g1 : 2 / 3 * (qz * tsi ρ ^ 4) * |ρ.xbstar| ≤ 2 / 3 * qz * tsi ρ * ((199 / 10) ^ 3 * (5000 * ρ.xecco ^ 2)) := by
      rw [show 2 / 3 * (qz * tsi ρ ^ 4) * |ρ.xbstar| = 2 / 3 * qz * tsi ρ * (tsi ρ ^ 3 * |ρ.xbstar|) by ring]
      exact mul_le_mul_of_nonneg_left g0 (by positivity)
    have g2 : 2 / 3 * ((42 / 6378.137) ^ 4 * (199 / 10) ^ 3) * 5000 ≤ 5 / 10 ^ 2 * ao ρ := by
      norm_num at a1 ⊢; linarith
    have g3 := mul_le_mul_of_nonneg_right g2 (show 0 ≤ tsi ρ * ρ.xecco ^ 2 by positivity)
    rw [abs_of_pos (by norm_num : (0 : ℝ) < 2 / 3)]
    refine g1.trans ?_
    rw [hz]
    linarith
  · norm_num

theorem dragE_calm (hL : Libm.Faithful) (h : Calm ρ τ) (hr : Rounded o ρ) {τ' : ℝ} (h2 : |ρ.xbstar * τ'| * lowOf ρ ^ 5 ≤ 2) :
    |dragE (record ρ r0) τ'| ≤ 89 / 10 ^ 5 := by
  have he := elements_still h hr
  obtain ⟨c0, c1, c2⟩ := coef1_calm hL h hr
  have hl := low_one ρ
  have hco : |coef1 ρ| ≤ 29 / 10 ^ 5 * lowOf ρ ^ 4 := by rw [abs_of_nonneg (c0.trans c1)]; exact c2
  have aL : 0 < ao ρ := (ao_pos hL he :)
  have aH : ao ρ ≤ 192 / 10 ^ 2 := ((ao_bounds0 hL he).2 :)
  have ha : |ao ρ| ≤ 192 / 10 ^ 2 := by rwa [abs_of_pos aL]
  have ho : |ome ρ| ≤ 1 := ((i_ome he).mag :)
  have hn : |no ρ| ≤ 788 / 10 ^ 4 := ((i_no hL he).top :)
  have hb : |b4 ρ| ≤ 465 / 10 ^ 2 := ((i_b4 hL he).mag :)
  have b3 : |cc4 ρ| ≤ _ := prod_le (prod_le (prod_le (prod_le (prod_le (show |(2.0 : ℝ)| ≤ 2 by norm_num) hn) hco) ha) ho) hb
  have e : dragE (record ρ r0) τ' = (ρ.xbstar * τ') * cc4 ρ + ρ.xbstar * cc5 ρ * (Real.sin (anomaly (record ρ r0) τ') - Real.sin ρ.xmo) := by
    show ρ.xbstar * cc4 ρ * τ' + _ = _
    rw [show ρ.xbstar * cc4 ρ * τ' = (ρ.xbstar * τ') * cc4 ρ by ring]; rfl
  have s1 : |Real.sin (anomaly (record ρ r0) τ') - Real.sin ρ.xmo| ≤ 2 := by
    have a := Real.abs_sin_le_one (anomaly (record ρ r0) τ')
    have b := Real.abs_sin_le_one ρ.xmo
    rw [abs_le] at *; constructor <;> linarith
  rw [e]
  exact (abs_add_le _ _).trans ((add_le_add (scaled_mul hl h2 (b3.trans (le_of_eq (b := 2 * (788 / 10 ^ 4) * (29 / 10 ^ 5) * (192 / 10 ^ 2) * 1 * (465 / 10 ^ 2) * lowOf ρ ^ 4) (by ring))) (by norm_num) (by norm_num)) (prod_le (cc5_calm hL h hr) s1)).trans (by norm_num))

theorem span_calm (hL : Libm.Faithful) (h : Calm ρ τ) (hr : Rounded o ρ) (r0 : Satrec ℝ) {τ' : ℝ} (h1 : |τ'| ≤ 43200) (h2 : |ρ.xbstar * τ'| * lowOf ρ ^ 5 ≤ 2) : Span ρ r0 τ' := by
  obtain ⟨s1, s2, s3, s4, s5, s6, s7, s8⟩ := series_calm hL h hr h1 h2
  have hd := abs_le.mp (dragE_calm hL h hr (r0 := r0) h2)
  have e : meanEcc (record ρ r0) τ' = ρ.xecco - dragE (record ρ r0) τ' := rfl
  have := h.ecc_lo
  have := h.ecc_hi
  refine ⟨s1.trans (by norm_num), s2.trans (by norm_num), s3.trans (by norm_num), s4.trans (by norm_num), s5, s6, s7, s8, omg_calm hL h hr h2,
    (cc5_calm hL h hr).trans (by norm_num), xmcof_calm hL h hr, ?_, ?_⟩
  · rw [e]; norm_num at *; linarith [hd.2]
  · rw [e]; norm_num at *; linarith [hd.1]

/-! ## The distance from the centre -/

theorem radius_lower_wide (hL : Libm.Faithful) {s : Satrec F64} {t : F64} {r : Satrec ℝ} {τ A E : ℝ} (h : Wide.Mid s t r τ) (hA0 : 0 ≤ A)
    (hA : A ≤ semiMajor r τ) (hE : |Spec.ecc r τ| ≤ E) (hE1 : E ≤ 44 / 10 ^ 2) :
    A * (1 - E - 0.0034) * 0.99 - 0.001 ≤ radius r τ := by
  have hE0 := (abs_nonneg _).trans hE
  have h1 : |invP r τ * ayCoef r τ| ≤ 0.0034 := by
    rw [abs_mul]
    exact (mul_le_mul ((Wide.t_invP hL h).mag.trans (show _ ≤ (1.7 : ℝ) by norm_num)) h.ay.mag (abs_nonneg _) (by norm_num)).trans (by norm_num)
  have h2 : axn r τ ^ 2 + ayn r τ ^ 2 ≤ (E + 0.0034) ^ 2 := plane_add (Real.sin_sq_add_cos_sq (perigeeR r τ)) hE h1
  have h3 : |axn r τ * (sinCosE r τ).2 - ayn r τ * (-(sinCosE r τ).1)| ≤ (E + 0.0034) * 1 :=
    plane_cauchy h2 (by norm_num at *; linarith) (by have := (Wide.t_sinCos hL h).2.2; norm_num; linarith) (by norm_num)
  have h4 : 1 - E - 0.0034 ≤ oneE r τ := by
    have e : oneE r τ = 1 - (axn r τ * (sinCosE r τ).2 + ayn r τ * (sinCosE r τ).1) := by unfold oneE; norm_num
    have := (abs_le.mp h3).2
    rw [e]; linarith
  have h5 : A * (1 - E - 0.0034) ≤ radius0 r τ := by
    have e : radius0 r τ = semiMajor r τ * oneE r τ := rfl
    rw [e]; exact mul_le_mul hA h4 (by norm_num at *; linarith) (le_trans hA0 hA)
  have h0 := Wide.radius0_ge hL h
  have b1 : |1.5 * Spec.k2 r τ * beta r τ * threeCos r τ| ≤ 0.01 := by
    refine (abs_mul4 (show |(1.5 : ℝ)| ≤ 1.5 by norm_num [abs_of_pos]) (Wide.t_k2 hL h).mag (Wide.t_beta hL h).mag h.c3.mag).trans ?_
    norm_num
  have b2 : |0.5 * k1 r τ * oneMinusCos r τ * cos2u r τ| ≤ 0.001 := by
    refine (abs_mul4 (show |(0.5 : ℝ)| ≤ 0.5 by norm_num [abs_of_pos]) (Wide.t_k1 hL h).mag h.c1.mag (Wide.t_cos2u hL h).mag).trans ?_
    norm_num
  have e : radius r τ = radius0 r τ * (1.0 - 1.5 * Spec.k2 r τ * beta r τ * threeCos r τ) + 0.5 * k1 r τ * oneMinusCos r τ * cos2u r τ := rfl
  rw [e]
  have b1' := (abs_le.mp b1).2
  have b2' := (abs_le.mp b2).1
  have h6 : radius0 r τ * 0.99 ≤ radius0 r τ * (1.0 - 1.5 * Spec.k2 r τ * beta r τ * threeCos r τ) :=
    mul_le_mul_of_nonneg_left (by norm_num at *; linarith) (le_trans (by norm_num) h0)
  have h7 : A * (1 - E - 0.0034) * 0.99 ≤ radius0 r τ * 0.99 := mul_le_mul_of_nonneg_right h5 (by norm_num)
  linarith

theorem radius_calm (hL : Libm.Faithful) (h : Calm ρ τ) (hr : Rounded o ρ) (ht : t.Fin) (h1 : |t.val| ≤ 43200) (h2 : |ρ.xbstar * t.val| * lowOf ρ ^ 5 ≤ 2) :
    1 + 1 / 10 ^ 8 ≤ radius (record ρ r0) t.val := by
  have hE := elements_calm hL h hr
  have hS := span_calm hL h hr r0 h1 h2
  have hm := f_mid (s0 := Satrec.zero) hL hE hS ⟨ht, h1.trans (by norm_num)⟩
  obtain ⟨s1, s2, s3, s4, -⟩ := series_calm hL h hr h1 h2
  have hd := abs_le.mp (dragE_calm hL h hr (r0 := r0) h2)
  have e : meanEcc (record ρ r0) t.val = ρ.xecco - dragE (record ρ r0) t.val := rfl
  have el := h.ecc_lo
  have eh := h.ecc_hi
  have aH := (ao_bounds0 hL hE).2
  have a0 := ao_pos hL hE
  have hp : 1 + 240 / 6378.137 ≤ ao ρ * (1 - ρ.xecco) := by
    have := calm_rp h
    rwa [show rp ρ = ao ρ * (1 - ρ.xecco) by show ao ρ * ((1.0 : ℝ) - _) = _; norm_num] at this
  have hdr : 999 / 10 ^ 3 ≤ dragA (record ρ r0) t.val := by
    show 999 / 10 ^ 3 ≤ (1.0 : ℝ) - cc1 ρ * t.val - d2 ρ * (t.val * t.val) - d3 ρ * (t.val * t.val * t.val) - d4 ρ * (t.val * t.val * t.val * t.val)
    have := (abs_le.mp s1).2
    have := (abs_le.mp s2).2
    have := (abs_le.mp s3).2
    have := (abs_le.mp s4).2
    norm_num at *; linarith
  have hA : ao ρ * (998 / 10 ^ 3) ≤ semiMajor (record ρ r0) t.val := by
    have e : semiMajor (record ρ r0) t.val = ao ρ * (dragA (record ρ r0) t.val * dragA (record ρ r0) t.val) := by
      show ao ρ * _ * _ = _; ring
    rw [e]
    refine mul_le_mul_of_nonneg_left ?_ a0.le
    exact le_trans (by norm_num) (mul_le_mul hdr hdr (by norm_num) (le_trans (by norm_num) hdr))
  have hec : |Spec.ecc (record ρ r0) t.val| ≤ ρ.xecco + 89 / 10 ^ 5 := by
    unfold Spec.ecc
    split
    · rw [abs_of_pos (by norm_num)]; norm_num at *; linarith
    · rename_i hc
      rw [real_flt, decide_eq_true_eq, not_lt] at hc
      rw [abs_of_nonneg (le_trans (by norm_num) hc), e]; linarith [hd.1]
  refine le_trans ?_ (radius_lower_wide hL hm (by positivity) hA hec (by norm_num at *; linarith))
  have : ao ρ * (998 / 10 ^ 3) * (1 - (ρ.xecco + 89 / 10 ^ 5) - 0.0034) = 998 / 10 ^ 3 * (ao ρ * (1 - ρ.xecco)) - 998 / 10 ^ 3 * ao ρ * (89 / 10 ^ 5 + 0.0034) := by ring
  rw [this]
  norm_num at *; linarith

/-! ## C84 -/

/-- **C84.** Initialise and propagate, in doubles, with elements that are those of a calm orbit up to rounding; and initialise and propagate the
exact elements in exact arithmetic.  All four calls succeed, each position component of the two states differs by at most one metre and each
velocity component by at most 2 mm/s; likewise the states reported by the two initialisations. -/
theorem C84_initialise_and_propagate (hL : Libm.Faithful) (o : SGP4InitOptions F64) (ρ : SGP4InitOptions ℝ) (s0 : Satrec F64) (r0 : Satrec ℝ) (t : F64)
    (ht : t.Fin) (h : Calm ρ t.val) (hr : Rounded o ρ) :
    ∃ (s : Satrec F64) (r : Satrec ℝ) (p0 p : SGP4Result F64) (q0 q : SGP4Result ℝ),
      sgp4init s0 o = some (s, .ok p0) ∧ sgp4init r0 ρ = some (r, .ok q0) ∧
      resultOf (sgp4 s t) = some (.ok p) ∧ resultOf (sgp4 r t.val) = some (.ok q) ∧
      p.position.Close q.position (1 / 10 ^ 3) ∧ p.velocity.Close q.velocity (2 / 10 ^ 6) ∧
      p0.position.Close q0.position (1 / 10 ^ 3) ∧ p0.velocity.Close q0.velocity (2 / 10 ^ 6) := by
  have hE := elements_calm hL h hr
  obtain ⟨z1, z2⟩ := sci_int (m := 0) (s := true) (k := 1) 0 (by norm_num) (by norm_num)
  have z3 : (0.0 : F64).val = 0 := z2.trans (by push_cast; rfl)
  have y1 : |(0.0 : F64).val| ≤ 43200 := by rw [z3]; norm_num
  have y2 : |ρ.xbstar * (0.0 : F64).val| * lowOf ρ ^ 5 ≤ 2 := by rw [z3]; norm_num
  obtain ⟨p0, q0, a1, a2, a3, a4⟩ := run_close (s0 := s0) (r0 := r0) (t := (0.0 : F64)) hL hE (span_calm hL h hr r0 y1 y2) ⟨z1, y1.trans (by norm_num)⟩ (radius_calm hL h hr z1 y1 y2)
  obtain ⟨p, q, b1, b2, b3, b4⟩ := run_close (s0 := s0) (r0 := r0) (t := t) hL hE (span_calm hL h hr r0 h.time_hi h.drag_hi) ⟨ht, h.time_hi.trans (by norm_num)⟩ (radius_calm hL h hr ht h.time_hi h.drag_hi)
  have a2' : resultOf (sgp4 (record ρ r0) (0.0 : ℝ)) = some (.ok q0) := by
    rw [← a2, z3]; congr 2; norm_num
  obtain ⟨s, hs, hs'⟩ := init_ok (branch_f64 hL hE) s0 a1
  obtain ⟨r, hr1, hr'⟩ := init_ok (branch_real hL hE) r0 a2'
  exact ⟨s, r, p0, p, q0, q, hs, hr1, (hs' t).trans b1, (hr' t.val).trans b2, b3, b4, a3, a4⟩

end
end Sat.Chain
