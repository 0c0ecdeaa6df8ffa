import Verif.Props.F64Init
import Verif.Props.Coefficients
import Verif.Props.Accept
/-!
# Initialisation and propagation in doubles against the same computation in exact arithmetic (near-earth)

`C84`: elements given as doubles close to real elements `ρ` of an ordinary near-earth orbit; the record is built and propagated in doubles, and,
separately, built and propagated in exact arithmetic.  Both computations succeed, and the states differ by less than one metre and 2 mm/s.
-/

namespace Sat.Chain
open F64 Spec

/-- The drag terms at time `τ` (minutes since epoch), in exact arithmetic, are of ordinary size, and the eccentricity stays in range. -/
structure Span (ρ : SGP4InitOptions ℝ) (r0 : Satrec ℝ) (τ : ℝ) : Prop where
  cc1_t : |cc1 ρ * τ| ≤ 25 / 10 ^ 3
  d2_t : |d2 ρ * (τ * τ)| ≤ 25 / 10 ^ 3
  d3_t : |d3 ρ * (τ * τ * τ)| ≤ 25 / 10 ^ 3
  d4_t : |d4 ρ * (τ * τ * τ * τ)| ≤ 25 / 10 ^ 3
  t2_t : |t2cof ρ * (τ * τ)| ≤ 40
  t3_t : |t3cof ρ * (τ * τ * τ)| ≤ 2
  t4_t : |τ * τ * τ * τ| * |t4cof ρ| ≤ 2
  t5_t : |τ * τ * τ * τ| * |τ * t5cof ρ| ≤ 2
  omg_t : |ρ.xbstar| * cc3s ρ * |τ| ≤ 4
  cc5_b : |ρ.xbstar * cc5 ρ| ≤ 1 / 10 ^ 3
  xmcof_b : |xmcof ρ| ≤ 5 / 10 ^ 2
  ecc_lo : -(9 / 10 ^ 4) ≤ meanEcc (record ρ r0) τ
  ecc_hi : meanEcc (record ρ r0) τ ≤ 44 / 10 ^ 2

section
variable [Libm] {o : SGP4InitOptions F64} {ρ : SGP4InitOptions ℝ} {s0 : Satrec F64} {r0 : Satrec ℝ} {t : F64}

/-! ## The branches -/

theorem i_rp (hL : Libm.Faithful) (h : Elements o ρ) : Q (rp o) (rp ρ) 2 (1 / 10 ^ 13) := by
  have one := (Q.int 10 true 1 1 (by norm_num)).mono (A' := 1) (δ' := 0) (by norm_num) le_rfl
  have e := (in_ecc h).q (in_ecc h).top
  have g := one.sub' e 1 (by
    have := h.ecc_lo; have := h.ecc_hi
    rw [abs_le]; constructor <;> norm_num at * <;> linarith)
  have a := (i_ao hL h).q (i_ao hL h).top
  exact (a.mul g).mono (by norm_num) (by norm_num)

theorem branch_real (hL : Libm.Faithful) (h : Elements o ρ) : Branch ρ := by
  have hp := h.perigee
  have hn := (no_bounds hL h).1
  refine ⟨?_, ?_, ?_, ?_⟩
  · rw [real_fle, decide_eq_true_eq]
    have := ome_lo h.toRanges
    norm_num at *; linarith
  · rw [real_flt, decide_eq_false_iff_not, not_lt, ER_val]
    norm_num at *; linarith
  · rw [real_flt, decide_eq_false_iff_not, not_lt, ER_val]
    norm_num at *; linarith
  · rw [real_fle, decide_eq_false_iff_not, not_le, real_TWO_PI, div_lt_iff₀ (no_pos hL h)]
    have := Real.pi_lt_d4
    norm_num at *; linarith

theorem branch_f64 (hL : Libm.Faithful) (h : Elements o ρ) : Branch o := by
  have hp := h.perigee
  have qr := i_rp hL h
  obtain ⟨r1, r2⟩ := abs_le.mp qr.err
  refine ⟨?_, ?_, ?_, ?_⟩
  · have q := i_ome h
    obtain ⟨z1, z2⟩ := sci_int (m := 0) (s := true) (k := 1) 0 (by norm_num) (by norm_num)
    refine (fle_fin z1 q.fin).mpr ?_
    rw [z2]
    have := ome_lo h.toRanges
    have := (abs_le.mp q.err).1
    push_cast; norm_num at *; linarith
  · have one := (Q.int 10 true 1 1 (by norm_num)).mono (A' := 1) (δ' := 0) (by norm_num) le_rfl
    have l := Q.int 1560 true 1 156 (by norm_num)
    have g := ((qr.sub one).mul q_ER).mono (A' := 20000) (δ' := 1 / 10 ^ 3) (by norm_num) (by norm_num)
    rw [Bool.eq_false_iff]
    intro hc
    have hc' := (flt_fin g.fin l.fin).mp hc
    have l1 := (abs_le.mp l.err).2
    have g1 := (abs_le.mp g.err).1
    rw [ER_val] at g1
    norm_num at * <;> linarith
  · have one := (Q.int 10 true 1 1 (by norm_num)).mono (A' := 1) (δ' := 0) (by norm_num) le_rfl
    have l := Q.int 2200 true 1 220 (by norm_num)
    have g := ((l.div q_ER 6378 1 ER_ge (quot_le (m := 6378) l.mag ER_ge (by norm_num) (by norm_num))).add one).mono (A' := 2) (δ' := 1 / 10 ^ 10) (by norm_num) (by norm_num)
    rw [Bool.eq_false_iff]
    intro hc
    have hc' := (flt_fin qr.fin g.fin).mp hc
    have g1 := (abs_le.mp g.err).2
    rw [ER_val] at g1
    norm_num at * <;> linarith
  · have hn := no_bounds hL h
    have q := (i_no hL h).q (i_no hL h).top
    have tp : Q (TWO_PI : F64) (2 * Real.pi) 6.3 (1 / 2 ^ 51) := by
      refine ⟨two_pi_val.1, two_pi_err, ?_⟩
      have := Real.pi_lt_d4
      have := Real.pi_pos
      rw [abs_of_pos (by positivity)]; norm_num at *; linarith
    have hd : 28 / 10 ^ 3 ≤ |no ρ| := hn.1.trans (le_abs_self _)
    have g := (tp.div q (28 / 10 ^ 3) 226 hd (quot_le (m := 28 / 10 ^ 3) tp.mag hd (by norm_num) (by norm_num))).mono (A' := 226) (δ' := 1 / 10 ^ 10) (by norm_num) (by norm_num)
    have l := Q.int 2250 true 1 225 (by norm_num)
    rw [Bool.eq_false_iff]
    intro hc
    have hc' := (fle_fin l.fin g.fin).mp hc
    have l1 := (abs_le.mp l.err).1
    have g1 := (abs_le.mp g.err).2
    have b : 2 * Real.pi / no ρ ≤ 2245 / 10 := by
      rw [div_le_iff₀ (no_pos hL h)]
      have := Real.pi_lt_d4
      norm_num at *; linarith
    norm_num at * <;> linarith

/-! ## Terms of the drag series -/

/-- `bstar * coef1 * no` is the coefficient `cc1` up to the factor `b2` -/
theorem cc4_t (hL : Libm.Faithful) (h : Elements o ρ) (hs : Span ρ r0 t.val) (K : ℝ) (hK0 : 0 ≤ K) (hK : K ≤ 465 / 10 ^ 2) :
    |ρ.xbstar| * (|2.0 * no ρ * coef1 ρ * ao ρ * ome ρ| * K) * |t.val| ≤ 6 / 10 ^ 1 := by
  have h1 := hs.cc1_t
  have b := b2_lo hL h
  have a0 := ao_pos hL h
  have aH := (ao_bounds0 hL h).2
  have o0 : 0 ≤ ome ρ := le_trans (by norm_num) (ome_lo h.toRanges)
  have oH := ome_hi h.toRanges
  have e1 : |cc1 ρ * t.val| = |ρ.xbstar| * |coef1 ρ * no ρ| * |t.val| * b2 ρ := by
    rw [show cc1 ρ = ρ.xbstar * (coef1 ρ * no ρ * b2 ρ) from rfl, abs_mul, abs_mul, abs_mul, abs_of_pos (lt_of_lt_of_le (by norm_num) b)]; ring
  have e2 : |2.0 * no ρ * coef1 ρ * ao ρ * ome ρ| = 2 * |coef1 ρ * no ρ| * (ao ρ * ome ρ) := by
    rw [show (2.0 : ℝ) * no ρ * coef1 ρ * ao ρ * ome ρ = 2 * (coef1 ρ * no ρ) * (ao ρ * ome ρ) by norm_num; ring, abs_mul, abs_mul,
      abs_of_nonneg (mul_nonneg a0.le o0)]; norm_num
  set X := |ρ.xbstar| * |coef1 ρ * no ρ| * |t.val| with hX
  have X0 : 0 ≤ X := by positivity
  have X1 : X * (86 / 10 ^ 2) ≤ 25 / 10 ^ 3 := (mul_le_mul_of_nonneg_left b X0).trans (e1 ▸ h1)
  have ab : ao ρ * ome ρ ≤ 192 / 10 ^ 2 := (mul_le_mul aH oH o0 (by norm_num)).trans (by norm_num)
  have e3 : |ρ.xbstar| * (|2.0 * no ρ * coef1 ρ * ao ρ * ome ρ| * K) * |t.val| = X * (2 * (ao ρ * ome ρ) * K) := by rw [e2, hX]; ring
  rw [e3]
  have f : 2 * (ao ρ * ome ρ) * K ≤ 2 * (192 / 10 ^ 2) * (465 / 10 ^ 2) := mul_le_mul (by linarith) hK hK0 (by norm_num)
  have := mul_le_mul_of_nonneg_left f X0
  norm_num at *; linarith

theorem node_t (hL : Libm.Faithful) (h : Elements o ρ) (hs : Span ρ r0 t.val) :
    |3.5 * ome ρ| * (|-temp1 ρ| * 1) * |cc1 ρ| * |t.val * t.val| ≤ 2 / 10 ^ 2 := by
  have h1 := hs.t2_t
  have e1 : |t2cof ρ * (t.val * t.val)| = 15 / 10 * (|cc1 ρ| * |t.val * t.val|) := by
    rw [show t2cof ρ = (1.5 : ℝ) * cc1 ρ from rfl, abs_mul, abs_mul]; norm_num [abs_of_pos]; ring
  have o1 : |3.5 * ome ρ| ≤ 35 / 10 := by
    have o0 : 0 ≤ ome ρ := le_trans (by norm_num) (ome_lo h.toRanges)
    have oH := ome_hi h.toRanges
    rw [abs_of_nonneg (by positivity)]; norm_num at *; linarith
  have t1 : |-temp1 ρ| * 1 ≤ 122 / 10 ^ 6 := by rw [abs_neg, mul_one]; exact (i_temp1 hL h).top.trans (by norm_num)
  have X0 : 0 ≤ |cc1 ρ| * |t.val * t.val| := by positivity
  have f := mul_le_mul o1 t1 (by positivity) (by norm_num)
  have := mul_le_mul_of_nonneg_right f X0
  rw [e1] at h1
  norm_num at *; linarith

omit [Libm] in
theorem q_time (ht : Within t 100000) : QS t t.val |t.val| 100000 0 0 := QS.self ht.1 ht.2
theorem f_grav (hL : Libm.Faithful) (h : Elements o ρ) (hs : Span ρ r0 t.val) (ht : Within t 100000) : Q (anomalyGravity (record o s0) t) (anomalyGravity (record ρ r0) t.val) (7920) (133 / 10 ^ 13) := by
  have g1 := ((i_mdot hL h).mul (Q.exact ht.1 ht.2)).mono (A' := 7910) (δ' := 124 / 10 ^ 13) (by norm_num) (by norm_num)
  have g2 := ((in_anom h).add g1).mono (A' := 7920) (δ' := 133 / 10 ^ 13) (by norm_num) (by norm_num)
  exact g2

theorem f_dragAngle (hL : Libm.Faithful) (h : Elements o ρ) (hs : Span ρ r0 t.val) (ht : Within t 100000) : Q (dragAngle (record o s0) t) (dragAngle (record ρ r0) t.val) (48 / 10 ^ 1) (141 / 10 ^ 13) := by
  have g1 := (Q.int 10 true 1 1 (by norm_num)).mono (A' := 1) (δ' := 0) (by norm_num) le_rfl
  have g2 := ((f_grav (s0 := s0) hL h hs ht).angle).mono (A' := 7930) (δ' := 133 / 10 ^ 13) (by norm_num) (by norm_num)
  have g3 := (g2.cos hL).mono (A' := 1) (δ' := 134 / 10 ^ 13) (by norm_num) (by norm_num)
  have g4 := ((i_eta hL h).mul g3).mono (A' := 1) (δ' := 136 / 10 ^ 13) (by norm_num) (by norm_num)
  have g5 := (g1.add g4).mono (A' := 2) (δ' := 137 / 10 ^ 13) (by norm_num) (by norm_num)
  have g6 := (g5.mul g5).mono (A' := 4) (δ' := 549 / 10 ^ 13) (by norm_num) (by norm_num)
  have g7 := (g6.mul g5).mono (A' := 8) (δ' := 165 / 10 ^ 12) (by norm_num) (by norm_num)
  have g8 := ((i_xmcof hL h).q (C := 5 / 10 ^ 2) hs.xmcof_b).mono (A' := 5 / 10 ^ 2) (δ' := 651 / 10 ^ 16) (by norm_num) (by norm_num)
  have g9 := (g7.sub (i_delmo hL h)).mono (A' := 16) (δ' := 168 / 10 ^ 12) (by norm_num) (by norm_num)
  have g10 := (g8.mul g9).mono (A' := 8 / 10 ^ 1) (δ' := 945 / 10 ^ 14) (by norm_num) (by norm_num)
  have g11 := ((i_omgcof hL h).mul (q_time ht)).mono (M₁ := 80400) (ε₁ := 115 / 10 ^ 14) (η₁ := 37 / 10 ^ 38) (by norm_num) (by norm_num) (by norm_num)
  have g12 := (g11.q (C := 4) (by have := hs.omg_t; rwa [mul_one])).mono (A' := 4) (δ' := 461 / 10 ^ 14) (by norm_num) (by norm_num)
  have g13 := (g12.add g10).mono (A' := 48 / 10 ^ 1) (δ' := 141 / 10 ^ 13) (by norm_num) (by norm_num)
  exact g13

theorem f_anomaly (hL : Libm.Faithful) (h : Elements o ρ) (hs : Span ρ r0 t.val) (ht : Within t 100000) : Q (anomaly (record o s0) t) (anomaly (record ρ r0) t.val) (7930) (283 / 10 ^ 13) := by
  have g1 := ((f_grav (s0 := s0) hL h hs ht).add (f_dragAngle (s0 := s0) hL h hs ht)).mono (A' := 7930) (δ' := 283 / 10 ^ 13) (by norm_num) (by norm_num)
  exact g1

theorem f_perigee (hL : Libm.Faithful) (h : Elements o ρ) (hs : Span ρ r0 t.val) (ht : Within t 100000) : Q (perigee (record o s0) t) (perigee (record ρ r0) t.val) (363 / 10 ^ 1) (149 / 10 ^ 13) := by
  have g1 := ((i_argpdot hL h).mul (Q.exact ht.1 ht.2)).mono (A' := 252 / 10 ^ 1) (δ' := 7 / 10 ^ 13) (by norm_num) (by norm_num)
  have g2 := ((in_argp h).add g1).mono (A' := 315 / 10 ^ 1) (δ' := 708 / 10 ^ 15) (by norm_num) (by norm_num)
  have g3 := (g2.sub (f_dragAngle (s0 := s0) hL h hs ht)).mono (A' := 363 / 10 ^ 1) (δ' := 149 / 10 ^ 13) (by norm_num) (by norm_num)
  exact g3

theorem f_node (hL : Libm.Faithful) (h : Elements o ρ) (hs : Span ρ r0 t.val) (ht : Within t 100000) : Q (Spec.node (record o s0) t) (Spec.node (record ρ r0) t.val) (188 / 10 ^ 1) (399 / 10 ^ 15) := by
  have g1 := ((i_nodedot hL h).mul (Q.exact ht.1 ht.2)).mono (A' := 124 / 10 ^ 1) (δ' := 234 / 10 ^ 15) (by norm_num) (by norm_num)
  have g2 := ((in_node h).add g1).mono (A' := 187 / 10 ^ 1) (δ' := 241 / 10 ^ 15) (by norm_num) (by norm_num)
  have g3 := ((q_time ht).rmul (q_time ht)).mono (M₁ := 10000000000) (ε₁ := 112 / 10 ^ 18) (η₁ := 876 / 10 ^ 49) (by norm_num) (by norm_num) (by norm_num)
  have g4 := ((i_nodecf hL h).mul g3).mono (M₁ := 42700) (ε₁ := 77 / 10 ^ 13) (η₁ := 998 / 10 ^ 38) (by norm_num) (by norm_num) (by norm_num)
  have g5 := (g4.q (C := 2 / 10 ^ 2) (node_t hL h hs)).mono (A' := 2 / 10 ^ 2) (δ' := 155 / 10 ^ 15) (by norm_num) (by norm_num)
  have g6 := (g2.add g5).mono (A' := 188 / 10 ^ 1) (δ' := 399 / 10 ^ 15) (by norm_num) (by norm_num)
  exact g6

theorem f_dragA (hL : Libm.Faithful) (h : Elements o ρ) (hs : Span ρ r0 t.val) (ht : Within t 100000) : Q (dragA (record o s0) t) (dragA (record ρ r0) t.val) (112 / 10 ^ 2) (201 / 10 ^ 14) := by
  have g1 := (Q.int 10 true 1 1 (by norm_num)).mono (A' := 1) (δ' := 0) (by norm_num) le_rfl
  have g2 := ((q_time ht).rmul (q_time ht)).mono (M₁ := 10000000000) (ε₁ := 112 / 10 ^ 18) (η₁ := 876 / 10 ^ 49) (by norm_num) (by norm_num) (by norm_num)
  have g3 := (g2.rmul (q_time ht)).mono (M₁ := 1000000000000000) (ε₁ := 224 / 10 ^ 18) (η₁ := 877 / 10 ^ 44) (by norm_num) (by norm_num) (by norm_num)
  have g4 := (g3.rmul (q_time ht)).mono (M₁ := 100000000000000000000) (ε₁ := 336 / 10 ^ 18) (η₁ := 878 / 10 ^ 39) (by norm_num) (by norm_num) (by norm_num)
  have g5 := ((i_cc1 hL h).rmul (q_time ht)).mono (M₁ := 1000) (ε₁ := 768 / 10 ^ 14) (η₁ := 212 / 10 ^ 39) (by norm_num) (by norm_num) (by norm_num)
  have g6 := (g5.q (C := 25 / 10 ^ 3) hs.cc1_t).mono (A' := 25 / 10 ^ 3) (δ' := 193 / 10 ^ 15) (by norm_num) (by norm_num)
  have g7 := (g1.sub g6).mono (A' := 103 / 10 ^ 2) (δ' := 194 / 10 ^ 15) (by norm_num) (by norm_num)
  have g8 := ((i_d2 hL h).rmul g2).mono (M₁ := 312000000) (ε₁ := 158 / 10 ^ 13) (η₁ := 133 / 10 ^ 33) (by norm_num) (by norm_num) (by norm_num)
  have g9 := (g8.q (C := 25 / 10 ^ 3) hs.d2_t).mono (A' := 25 / 10 ^ 3) (δ' := 396 / 10 ^ 15) (by norm_num) (by norm_num)
  have g10 := (g7.sub g9).mono (A' := 106 / 10 ^ 2) (δ' := 591 / 10 ^ 15) (by norm_num) (by norm_num)
  have g11 := ((i_d3 hL h).rmul g3).mono (M₁ := 144000000000000) (ε₁ := 24 / 10 ^ 12) (η₁ := 183 / 10 ^ 27) (by norm_num) (by norm_num) (by norm_num)
  have g12 := (g11.q (C := 25 / 10 ^ 3) hs.d3_t).mono (A' := 25 / 10 ^ 3) (δ' := 601 / 10 ^ 15) (by norm_num) (by norm_num)
  have g13 := (g10.sub g12).mono (A' := 109 / 10 ^ 2) (δ' := 12 / 10 ^ 13) (by norm_num) (by norm_num)
  have g14 := ((i_d4 hL h).rmul g4).mono (M₁ := 75900000000000000000) (ε₁ := 322 / 10 ^ 13) (η₁ := 114 / 10 ^ 21) (by norm_num) (by norm_num) (by norm_num)
  have g15 := (g14.q (C := 25 / 10 ^ 3) hs.d4_t).mono (A' := 25 / 10 ^ 3) (δ' := 806 / 10 ^ 15) (by norm_num) (by norm_num)
  have g16 := (g13.sub g15).mono (A' := 112 / 10 ^ 2) (δ' := 201 / 10 ^ 14) (by norm_num) (by norm_num)
  exact g16

omit [Libm] in
theorem dragA_lo (hs : Span ρ r0 t.val) : 9 / 10 ≤ dragA (record ρ r0) t.val := by
  have h1 := (abs_le.mp hs.cc1_t).2
  have h2 := (abs_le.mp hs.d2_t).2
  have h3 := (abs_le.mp hs.d3_t).2
  have h4 := (abs_le.mp hs.d4_t).2
  show 9 / 10 ≤ (1.0 : ℝ) - cc1 ρ * t.val - d2 ρ * (t.val * t.val) - d3 ρ * (t.val * t.val * t.val) - d4 ρ * (t.val * t.val * t.val * t.val)
  norm_num at *; linarith
omit [Libm] in
theorem dragA_hi (hs : Span ρ r0 t.val) : |dragA (record ρ r0) t.val| ≤ 11 / 10 ^ 1 := by
  have h1 := (abs_le.mp hs.cc1_t).1
  have h2 := (abs_le.mp hs.d2_t).1
  have h3 := (abs_le.mp hs.d3_t).1
  have h4 := (abs_le.mp hs.d4_t).1
  rw [abs_of_nonneg (le_trans (by norm_num) (dragA_lo hs))]
  show (1.0 : ℝ) - cc1 ρ * t.val - d2 ρ * (t.val * t.val) - d3 ρ * (t.val * t.val * t.val) - d4 ρ * (t.val * t.val * t.val * t.val) ≤ _
  norm_num at *; linarith
theorem axis_lo (hL : Libm.Faithful) (h : Elements o ρ) (hs : Span ρ r0 t.val) : 3 / 4 ≤ semiMajor (record ρ r0) t.val := by
  have h1 := ao_lo hL h
  have h2 := dragA_lo hs
  have e : semiMajor (record ρ r0) t.val = ao ρ * dragA (record ρ r0) t.val * dragA (record ρ r0) t.val := rfl
  rw [e]
  have h3 : 1 * (9 / 10) ≤ ao ρ * dragA (record ρ r0) t.val := mul_le_mul (le_trans (by norm_num) h1) h2 (by norm_num) (le_trans (by norm_num) h1)
  exact le_trans (by norm_num) (mul_le_mul h3 h2 (by norm_num) (le_trans (by norm_num) h3))

theorem f_dragE (hL : Libm.Faithful) (h : Elements o ρ) (hs : Span ρ r0 t.val) (ht : Within t 100000) : Q (dragE (record o s0) t) (dragE (record ρ r0) t.val) (602 / 10 ^ 3) (273 / 10 ^ 14) := by
  have g1 := ((in_bstar h).mul (i_cc4 hL h)).mono (M₁ := 36800) (ε₁ := 447 / 10 ^ 14) (η₁ := 242 / 10 ^ 43) (by norm_num) (by norm_num) (by norm_num)
  have g2 := (g1.mul (q_time ht)).mono (M₁ := 3680000000) (ε₁ := 448 / 10 ^ 14) (η₁ := 243 / 10 ^ 38) (by norm_num) (by norm_num) (by norm_num)
  have g3 := (g2.q (C := 6 / 10 ^ 1) (cc4_t hL h hs (465 / 10 ^ 2) (by norm_num) (by norm_num))).mono (A' := 6 / 10 ^ 1) (δ' := 269 / 10 ^ 14) (by norm_num) (by norm_num)
  have g4 := ((in_bstar h).rmul (i_cc5 hL h)).mono (M₁ := 540000) (ε₁ := 5 / 10 ^ 12) (η₁ := 541 / 10 ^ 43) (by norm_num) (by norm_num) (by norm_num)
  have g5 := (g4.q (C := 1 / 10 ^ 3) hs.cc5_b).mono (A' := 1 / 10 ^ 3) (δ' := 501 / 10 ^ 17) (by norm_num) (by norm_num)
  have g6 := ((f_anomaly (s0 := s0) hL h hs ht).angle).mono (A' := 7940) (δ' := 283 / 10 ^ 13) (by norm_num) (by norm_num)
  have g7 := (g6.sin hL).mono (A' := 1) (δ' := 284 / 10 ^ 13) (by norm_num) (by norm_num)
  have g8 := (g7.sub (i_sinmao hL h)).mono (A' := 2) (δ' := 285 / 10 ^ 13) (by norm_num) (by norm_num)
  have g9 := (g5.mul g8).mono (A' := 2 / 10 ^ 3) (δ' := 386 / 10 ^ 16) (by norm_num) (by norm_num)
  have g10 := (g3.add g9).mono (A' := 602 / 10 ^ 3) (δ' := 273 / 10 ^ 14) (by norm_num) (by norm_num)
  exact g10

theorem f_dragL (hL : Libm.Faithful) (h : Elements o ρ) (hs : Span ρ r0 t.val) (ht : Within t 100000) : Q (dragL (record o s0) t) (dragL (record ρ r0) t.val) (46) (473 / 10 ^ 12) := by
  have g1 := ((q_time ht).rmul (q_time ht)).mono (M₁ := 10000000000) (ε₁ := 112 / 10 ^ 18) (η₁ := 876 / 10 ^ 49) (by norm_num) (by norm_num) (by norm_num)
  have g2 := (g1.rmul (q_time ht)).mono (M₁ := 1000000000000000) (ε₁ := 224 / 10 ^ 18) (η₁ := 877 / 10 ^ 44) (by norm_num) (by norm_num) (by norm_num)
  have g3 := (g2.rmul (q_time ht)).mono (M₁ := 100000000000000000000) (ε₁ := 336 / 10 ^ 18) (η₁ := 878 / 10 ^ 39) (by norm_num) (by norm_num) (by norm_num)
  have g4 := ((i_t2cof hL h).rmul g1).mono (M₁ := 150000000) (ε₁ := 769 / 10 ^ 14) (η₁ := 318 / 10 ^ 34) (by norm_num) (by norm_num) (by norm_num)
  have g5 := (g4.q (C := 40) hs.t2_t).mono (A' := 40) (δ' := 308 / 10 ^ 12) (by norm_num) (by norm_num)
  have g6 := ((i_t3cof hL h).rmul g2).mono (M₁ := 31400000000000) (ε₁ := 159 / 10 ^ 13) (η₁ := 134 / 10 ^ 28) (by norm_num) (by norm_num) (by norm_num)
  have g7 := (g6.q (C := 2) hs.t3_t).mono (A' := 2) (δ' := 319 / 10 ^ 13) (by norm_num) (by norm_num)
  have g8 := (g5.add g7).mono (A' := 42) (δ' := 34 / 10 ^ 11) (by norm_num) (by norm_num)
  have g9 := ((q_time ht).rmul (i_t5cof hL h)).mono (M₁ := 46400) (ε₁ := 327 / 10 ^ 13) (η₁ := 692 / 10 ^ 37) (by norm_num) (by norm_num) (by norm_num)
  have g10 := ((i_t4cof hL h)).mono (M₁ := 109 / 10 ^ 3) (ε₁ := 327 / 10 ^ 13) (η₁ := 138 / 10 ^ 42) (by norm_num) (by norm_num) (by norm_num)
  have g11 := (g9).mono (M₁ := 46400) (ε₁ := 327 / 10 ^ 13) (η₁ := 692 / 10 ^ 37) (by norm_num) (by norm_num) (by norm_num)
  have g12 := (g10.add g11).mono (M₁ := 46500) (ε₁ := 328 / 10 ^ 13) (η₁ := 693 / 10 ^ 37) (by norm_num) (by norm_num) (by norm_num)
  have g13 := (g3.mul g12).mono (M₁ := 4650000000000000000000000) (ε₁ := 329 / 10 ^ 13) (η₁ := 694 / 10 ^ 17) (by norm_num) (by norm_num) (by norm_num)
  have g14 := (g13.q (C := 4) (by have := hs.t4_t; have := hs.t5_t; rw [mul_add]; linarith)).mono (A' := 4) (δ' := 132 / 10 ^ 12) (by norm_num) (by norm_num)
  have g15 := (g8.add g14).mono (A' := 46) (δ' := 473 / 10 ^ 12) (by norm_num) (by norm_num)
  exact g15

omit [Libm] in
theorem meanEcc_le (hs : Span ρ r0 t.val) : |meanEcc (record ρ r0) t.val| ≤ 44 / 10 ^ 2 := by
  rw [abs_le]; exact ⟨le_trans (by norm_num) hs.ecc_lo, hs.ecc_hi⟩

theorem f_meanEcc (hL : Libm.Faithful) (h : Elements o ρ) (hs : Span ρ r0 t.val) (ht : Within t 100000) : Q (meanEcc (record o s0) t) (meanEcc (record ρ r0) t.val) (44 / 10 ^ 2) (274 / 10 ^ 14) := by
  have g1 := ((in_ecc h).q (in_ecc h).top).mono (A' := 44 / 10 ^ 2) (δ' := 102 / 10 ^ 18) (by norm_num) (by norm_num)
  have g2 := (g1.sub' (f_dragE (s0 := s0) hL h hs ht) (44 / 10 ^ 2) (show |ρ.xecco - dragE (record ρ r0) t.val| ≤ 44 / 10 ^ 2 from meanEcc_le hs)).mono (A' := 44 / 10 ^ 2) (δ' := 274 / 10 ^ 14) (by norm_num) (by norm_num)
  exact g2

theorem f_ecc (hL : Libm.Faithful) (h : Elements o ρ) (hs : Span ρ r0 t.val) (ht : Within t 100000) : Q (Spec.ecc (record o s0) t) (Spec.ecc (record ρ r0) t.val) (44 / 10 ^ 2) (275 / 10 ^ 14) := by
  have h1 := (Q.sci 10 true 7 (1 / 10 ^ 6) (by norm_num)).mono (A' := 44 / 10 ^ 2) (δ' := 1 / 10 ^ 6 / 2 ^ 53 + 1 / 2 ^ 153) (by norm_num) le_rfl
  exact ((f_meanEcc (s0 := s0) hL h hs ht).floorAt h1).mono le_rfl (by norm_num)

theorem f_a (hL : Libm.Faithful) (h : Elements o ρ) (hs : Span ρ r0 t.val) (ht : Within t 100000) : Q (semiMajor (record o s0) t) (semiMajor (record ρ r0) t.val) (234 / 10 ^ 2) (852 / 10 ^ 14) := by
  have g1 := (f_dragA (s0 := s0) hL h hs ht).bound (A' := 11 / 10 ^ 1) (dragA_hi hs)
  have g2 := ((i_ao hL h).q (i_ao hL h).top).mono (A' := 192 / 10 ^ 2) (δ' := 905 / 10 ^ 17) (by norm_num) (by norm_num)
  have g3 := (g2.mul g1).mono (A' := 212 / 10 ^ 2) (δ' := 387 / 10 ^ 14) (by norm_num) (by norm_num)
  have g4 := (g3.mul g1).mono (A' := 234 / 10 ^ 2) (δ' := 852 / 10 ^ 14) (by norm_num) (by norm_num)
  exact g4

theorem f_nodeR (hL : Libm.Faithful) (h : Elements o ρ) (hs : Span ρ r0 t.val) (ht : Within t 100000) : QA (nodeR (record o s0) t) (nodeR (record ρ r0) t.val) (63 / 10 ^ 1) (401 / 10 ^ 15) := by
  have g1 := ((f_node (s0 := s0) hL h hs ht).angle).mono (A' := 189 / 10 ^ 1) (δ' := 399 / 10 ^ 15) (by norm_num) (by norm_num)
  have g2 := (g1.remT).mono (A' := 63 / 10 ^ 1) (δ' := 401 / 10 ^ 15) (by norm_num) (by norm_num)
  exact g2

theorem f_perigeeR (hL : Libm.Faithful) (h : Elements o ρ) (hs : Span ρ r0 t.val) (ht : Within t 100000) : QA (perigeeR (record o s0) t) (perigeeR (record ρ r0) t.val) (63 / 10 ^ 1) (15 / 10 ^ 12) := by
  have g1 := ((f_perigee (s0 := s0) hL h hs ht).angle).mono (A' := 364 / 10 ^ 1) (δ' := 149 / 10 ^ 13) (by norm_num) (by norm_num)
  have g2 := (g1.remT).mono (A' := 63 / 10 ^ 1) (δ' := 15 / 10 ^ 12) (by norm_num) (by norm_num)
  exact g2

theorem f_anomalyR (hL : Libm.Faithful) (h : Elements o ρ) (hs : Span ρ r0 t.val) (ht : Within t 100000) : QA (anomalyR (record o s0) t) (anomalyR (record ρ r0) t.val) (63 / 10 ^ 1) (999 / 10 ^ 13) := by
  have g1 := ((i_no hL h).q (i_no hL h).top).mono (A' := 788 / 10 ^ 4) (δ' := 899 / 10 ^ 19) (by norm_num) (by norm_num)
  have g2 := (g1.mul (f_dragL (s0 := s0) hL h hs ht)).mono (A' := 363 / 10 ^ 2) (δ' := 373 / 10 ^ 13) (by norm_num) (by norm_num)
  have g3 := ((f_anomaly (s0 := s0) hL h hs ht).add g2).mono (A' := 7940) (δ' := 665 / 10 ^ 13) (by norm_num) (by norm_num)
  have g4 := (g3.add (f_perigee (s0 := s0) hL h hs ht)).mono (A' := 7980) (δ' := 823 / 10 ^ 13) (by norm_num) (by norm_num)
  have g5 := (g4.add (f_node (s0 := s0) hL h hs ht)).mono (A' := 8000) (δ' := 836 / 10 ^ 13) (by norm_num) (by norm_num)
  have g6 := (g5.angle).mono (A' := 8010) (δ' := 836 / 10 ^ 13) (by norm_num) (by norm_num)
  have g7 := (g6.remT).mono (A' := 63 / 10 ^ 1) (δ' := 842 / 10 ^ 13) (by norm_num) (by norm_num)
  have g8 := (g7.sub (f_perigeeR (s0 := s0) hL h hs ht)).mono (A' := 127 / 10 ^ 1) (δ' := 993 / 10 ^ 13) (by norm_num) (by norm_num)
  have g9 := (g8.sub (f_nodeR (s0 := s0) hL h hs ht)).mono (A' := 191 / 10 ^ 1) (δ' := 998 / 10 ^ 13) (by norm_num) (by norm_num)
  have g10 := (g9.remT).mono (A' := 63 / 10 ^ 1) (δ' := 999 / 10 ^ 13) (by norm_num) (by norm_num)
  exact g10

/-- the first half of the propagator -/
theorem f_mid (hL : Libm.Faithful) (h : Elements o ρ) (hs : Span ρ r0 t.val) (ht : Within t 100000) : Wide.Mid (record o s0) t (record ρ r0) t.val :=
  ⟨(f_a hL h hs ht).mono (by norm_num) (by norm_num), axis_lo hL h hs, (f_ecc hL h hs ht).mono le_rfl (by norm_num),
   (f_nodeR hL h hs ht).mono (by norm_num) (by norm_num), (f_perigeeR hL h hs ht).mono (by norm_num) (by norm_num),
   (f_anomalyR hL h hs ht).mono (by norm_num) (by norm_num), (in_incl h).mono (by norm_num) (by norm_num),
   (i_aycof hL h).mono (by norm_num) (by norm_num), (i_xlcof hL h).mono (by norm_num) (by norm_num), (i_con41 hL h).mono (by norm_num) (by norm_num),
   (i_x1m hL h).mono (by norm_num) (by norm_num), (i_x7 hL h).mono (by norm_num) (by norm_num)⟩

/-! ## The outcome -/

theorem state_close_wide (hL : Libm.Faithful) {s : Satrec F64} {t : F64} {r : Satrec ℝ} {τ : ℝ} (h : Wide.Mid s t r τ) :
    (position s t).Close (position r τ) (1 / 10 ^ 3) ∧ (velocity s t).Close (velocity r τ) (2 / 10 ^ 6) :=
  ⟨⟨(Wide.t_posx hL h).close (by norm_num), (Wide.t_posy hL h).close (by norm_num), (Wide.t_posz hL h).close (by norm_num)⟩,
   ⟨(Wide.t_velx hL h).close (by norm_num), (Wide.t_vely hL h).close (by norm_num), (Wide.t_velz hL h).close (by norm_num)⟩⟩

/-- propagation of the two records -/
theorem run_close (hL : Libm.Faithful) (h : Elements o ρ) (hs : Span ρ r0 t.val) (ht : Within t 100000) (hr : 1 + 1 / 10 ^ 8 ≤ radius (record ρ r0) t.val) :
    ∃ (p : SGP4Result F64) (q : SGP4Result ℝ), resultOf (sgp4 (record o s0) t) = some (.ok p) ∧ resultOf (sgp4 (record ρ r0) t.val) = some (.ok q) ∧
      p.position.Close q.position (1 / 10 ^ 3) ∧ p.velocity.Close q.velocity (2 / 10 ^ 6) := by
  have hm := f_mid (s0 := s0) hL h hs ht
  have hN : ¬ (record o s0).method = .D := by show ¬ InitlMethod.N = InitlMethod.D; simp
  have hN' : ¬ (record ρ r0).method = .D := by show ¬ InitlMethod.N = InitlMethod.D; simp
  have nb := no_bounds hL h
  have pl := Wide.t_semiLatus hL hm
  have plg := Wide.semiLatus_ge hL hm
  refine ⟨⟨position (record o s0) t, velocity (record o s0) t⟩, ⟨position (record ρ r0) t.val, velocity (record ρ r0) t.val⟩, ?_, ?_, state_close_wide hL hm⟩
  · rw [sgp4_refines (record o s0) t (dspaceReturns_near rfl)]
    congr 1
    unfold Spec.result
    have c1 : ¬ ((record o s0).no ≤. (0.0 : F64)) = true := by
      obtain ⟨z1, z2⟩ := sci_int (m := 0) (s := true) (k := 1) 0 (by norm_num) (by norm_num)
      have q := (i_no hL h).q (i_no hL h).top
      show ¬ F64.fle (no o) (F64.sci 0 true 1) = true
      rw [fle_fin q.fin z1, z2, not_le]
      have := (abs_le.mp q.err).1
      push_cast; norm_num at *; linarith
    have me := f_meanEcc (s0 := s0) hL h hs ht
    have m1 := abs_le.mp me.err
    have c2 : ¬ ((meanEcc (record o s0) t ≥. (1.0 : F64)) || (meanEcc (record o s0) t <. (-0.001 : F64))) = true := by
      rw [Bool.or_eq_true, not_or]
      constructor
      · obtain ⟨z1, z2⟩ := sci_int (m := 10) (s := true) (k := 1) 1 (by norm_num) (by norm_num)
        show ¬ F64.fle (F64.sci 10 true 1) (meanEcc (record o s0) t) = true
        rw [fle_fin z1 me.fin, z2, not_le]
        have := hs.ecc_hi
        push_cast; norm_num at *; linarith [m1.2]
      · have q := (Q.sci 1 true 3 (1 / 10 ^ 3) (by norm_num)).neg
        show ¬ F64.flt (meanEcc (record o s0) t) (-(OfScientific.ofScientific 1 true 3 : F64)) = true
        rw [flt_fin me.fin q.fin, not_lt]
        have := hs.ecc_lo
        have q2 := (abs_le.mp q.err).2
        norm_num at *; linarith [m1.1]
    have c4 : ¬ (Spec.semiLatus (record o s0) t <. (0.0 : F64)) = true := by
      refine lit_zero_le pl.fin ?_
      have := (abs_le.mp pl.err).1
      norm_num at * <;> linarith
    have rd := Wide.t_radius hL hm
    have c5 : ¬ (radius (record o s0) t <. (1.0 : F64)) = true := by
      obtain ⟨z1, z2⟩ := sci_int (m := 10) (s := true) (k := 1) 1 (by norm_num) (by norm_num)
      show ¬ F64.flt (radius (record o s0) t) (F64.sci 10 true 1) = true
      rw [flt_fin rd.fin z1, z2, not_lt]
      have := (abs_le.mp rd.err).1
      push_cast; norm_num at *; linarith
    rw [if_neg c1, if_neg c2, if_neg (fun hc => hN hc.1), if_neg c4, if_neg c5]
  · rw [sgp4_refines (record ρ r0) t.val (dspaceReturns_near rfl)]
    congr 1
    unfold Spec.result
    have c1 : ¬ ((record ρ r0).no ≤. (0.0 : ℝ)) = true := by
      rw [real_fle, decide_eq_true_eq, not_le]
      show (0.0 : ℝ) < no ρ
      norm_num at *; linarith
    have c2 : ¬ ((meanEcc (record ρ r0) t.val ≥. (1.0 : ℝ)) || (meanEcc (record ρ r0) t.val <. (-0.001 : ℝ))) = true := by
      rw [Bool.or_eq_true, not_or, real_fle, real_flt, decide_eq_true_eq, decide_eq_true_eq, not_le, not_lt]
      have := hs.ecc_hi
      have := hs.ecc_lo
      constructor <;> norm_num at * <;> linarith
    have c4 : ¬ (Spec.semiLatus (record ρ r0) t.val <. (0.0 : ℝ)) = true := by
      rw [real_flt, decide_eq_true_eq, not_lt]
      norm_num at *; linarith
    have c5 : ¬ (radius (record ρ r0) t.val <. (1.0 : ℝ)) = true := by
      rw [real_flt, decide_eq_true_eq, not_lt]
      norm_num at *; linarith
    rw [if_neg c1, if_neg c2, if_neg (fun hc => hN' hc.1), if_neg c4, if_neg c5]

omit [Libm] in
/-- the fields `t`, `error` and `init` of a near-earth record do not influence propagation -/
theorem run_same {F : Type} [Arith F] (s : Satrec F) (hm : s.method = .N) (a : F) (e : ℕ) (i : DpperInit) (t : F) :
    resultOf (sgp4 { s with t := a, error := e, init := i } t) = resultOf (sgp4 s t) := by
  rw [sgp4_refines s t (dspaceReturns_near hm)]
  refine (sgp4_refines { s with t := a, error := e, init := i } t (dspaceReturns_near hm)).trans ?_
  exact congrArg some (result_scratch s t a e i)

omit [Libm] in
/-- initialisation succeeds if the propagation at epoch does, and the record it leaves propagates like the chain's -/
theorem init_ok {F : Type} [Arith F] {o : SGP4InitOptions F} (b : Branch o) (s : Satrec F) {p : SGP4Result F}
    (h : resultOf (sgp4 (record o s) 0.0) = some (.ok p)) :
    ∃ s', sgp4init s o = some (s', .ok p) ∧ ∀ t, resultOf (sgp4 s' t) = resultOf (sgp4 (record o s) t) := by
  have hi : ∃ s', sgp4init s o = some (s', .ok p) := by
    unfold sgp4init
    rw [initRecord_chain s b]
    revert h
    generalize sgp4 (record o s) 0.0 = out
    intro h
    rcases out with _ | ⟨s', r⟩
    · cases h
    · cases h; exact ⟨_, rfl⟩
  obtain ⟨s', hs⟩ := hi
  refine ⟨s', hs, fun t => ?_⟩
  have e := (sgp4init_left hs).2 (by rw [initRecord_chain s b]; rfl)
  rw [initRecord_chain s b] at e
  rw [e]
  exact run_same (record o s) rfl _ _ _ t

end
end Sat.Chain
