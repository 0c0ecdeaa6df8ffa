import Verif.Props.F64DeepMoon
import Verif.Props.F64Deep
import Verif.Props.DeepAccept
/-!
# Deep-space initialisation and propagation in doubles against the same computation in exact arithmetic

The secular and lunar-solar terms of the propagator, evaluated in doubles on the record initialised from rounded elements, against the
same terms in exact arithmetic.
-/

namespace Sat.Far
open F64 Chain Spec

section
variable {F : Type} [Arith F]
/-- a record with the fields of `Fields` -/
def rec (o : SGP4InitOptions F) (s : Satrec F) : Satrec F :=
  { s with
    method := .D, isimp := 1, no := no o, ecco := o.xecco, inclo := o.xinclo, nodeo := o.xnodeo, argpo := o.xargpo, mo := o.xmo, bstar := o.xbstar,
    cc1 := cc1 o, cc4 := cc4 o, mdot := mdot o, argpdot := argpdot o, nodedot := nodedot o, nodecf := nodecf o, t2cof := t2cof o, dedt := dedt o,
    zmos := (ls o).zmos, zmol := (ls o).zmol, se2 := (ls o).se2, se3 := (ls o).se3, si2 := (ls o).si2, si3 := (ls o).si3, ee2 := (ls o).ee2,
    e3 := (ls o).e3, xi2 := (ls o).xi2, xi3 := (ls o).xi3, peo := 0.0, pinco := 0.0 }

theorem fields_eq {o : SGP4InitOptions F} {s : Satrec F} (h : Fields o s) : s = rec o s := by
  obtain ⟨h1, h2, h3, h4, h5, h6, h7, h8, h9, h10, h11, h12, h13, h14, h15, h16, h17, h18, h19, h20, h21, h22, h23, h24, h25, h26, h27, h28, h29⟩ := h
  unfold rec
  rw [← h1, ← h2, ← h3, ← h4, ← h5, ← h6, ← h7, ← h8, ← h9, ← h10, ← h11, ← h12, ← h13, ← h14, ← h15, ← h16, ← h17, ← h18, ← h19, ← h20, ← h21,
    ← h22, ← h23, ← h24, ← h25, ← h26, ← h27]
  exact congr (congrArg (fun a b : F => ({ s with peo := a, pinco := b } : Satrec F)) h28) h29
end

section
variable [Libm] {o : SGP4InitOptions F64} {ρ : SGP4InitOptions ℝ} {s0 : Satrec F64} {r0 : Satrec ℝ} {t : F64}
theorem p_anomaly (hL : Libm.Faithful) (h : Elements o ρ) (ht : Within t 43200) : Q (anomaly (rec o s0) t) (anomaly (rec ρ r0) t.val) (1230) (712 / 10 ^ 14) := by
  have g1 := ((i_mdot hL h).mul (Q.exact ht.1 ht.2)).mono (A' := 1220) (δ' := 697 / 10 ^ 14) (by norm_num) (by norm_num)
  have g2 := ((in_anom h).add g1).mono (A' := 1230) (δ' := 712 / 10 ^ 14) (by norm_num) (by norm_num)
  exact g2

theorem p_perigee (hL : Libm.Faithful) (h : Elements o ρ) (ht : Within t 43200) : Q (perigee (rec o s0) t) (perigee (rec ρ r0) t.val) (789 / 10 ^ 2) (973 / 10 ^ 15) := by
  have g1 := ((i_argpdot hL h).mul (Q.exact ht.1 ht.2)).mono (A' := 159 / 10 ^ 2) (δ' := 968 / 10 ^ 15) (by norm_num) (by norm_num)
  have g2 := ((in_argp h).add g1).mono (A' := 789 / 10 ^ 2) (δ' := 973 / 10 ^ 15) (by norm_num) (by norm_num)
  exact g2

theorem p_node (hL : Libm.Faithful) (h : Elements o ρ) (ht : Within t 43200) : Q (Spec.node (rec o s0) t) (Spec.node (rec ρ r0) t.val) (711 / 10 ^ 2) (484 / 10 ^ 15) := by
  have g1 := ((i_nodedot hL h).mul (Q.exact ht.1 ht.2)).mono (A' := 791 / 10 ^ 3) (δ' := 476 / 10 ^ 15) (by norm_num) (by norm_num)
  have g2 := ((in_node h).add g1).mono (A' := 71 / 10 ^ 1) (δ' := 481 / 10 ^ 15) (by norm_num) (by norm_num)
  have g3 := ((Q.exact ht.1 ht.2).mul (Q.exact ht.1 ht.2)).mono (A' := 1870000000) (δ' := 208 / 10 ^ 9) (by norm_num) (by norm_num)
  have g4 := ((i_nodecf hL h).mul g3).mono (A' := 167 / 10 ^ 6) (δ' := 216 / 10 ^ 17) (by norm_num) (by norm_num)
  have g5 := (g2.add g4).mono (A' := 711 / 10 ^ 2) (δ' := 484 / 10 ^ 15) (by norm_num) (by norm_num)
  exact g5

theorem p_dragA (hL : Libm.Faithful) (h : Elements o ρ) (ht : Within t 43200) : Q (dragA (rec o s0) t) (dragA (rec ρ r0) t.val) (101 / 10 ^ 2) (856 / 10 ^ 18) := by
  have g1 := (Q.int 10 true 1 1 (by norm_num)).mono (A' := 1) (δ' := 0) (by norm_num) le_rfl
  have g2 := ((i_cc1 hL h).mul (Q.exact ht.1 ht.2)).mono (A' := 605 / 10 ^ 7) (δ' := 744 / 10 ^ 18) (by norm_num) (by norm_num)
  have g3 := (g1.sub g2).mono (A' := 101 / 10 ^ 2) (δ' := 856 / 10 ^ 18) (by norm_num) (by norm_num)
  exact g3

theorem dragA_bounds (hL : Libm.Faithful) (h : Elements o ρ) (ht : Within t 43200) : 9999 / 10 ^ 4 ≤ dragA (rec ρ r0) t.val ∧ dragA (rec ρ r0) t.val ≤ 10001 / 10 ^ 4 := by
  have e : dragA (rec ρ r0) t.val = (1.0 : ℝ) - cc1 ρ * t.val := rfl
  have h1 : |cc1 ρ * t.val| ≤ 14 / 10 ^ 10 * 43200 := by
    rw [abs_mul]; exact mul_le_mul (i_cc1 hL h).mag ht.2 (abs_nonneg _) (by norm_num)
  obtain ⟨a, b⟩ := abs_le.mp h1
  rw [e]; constructor <;> norm_num at * <;> linarith
theorem dragA_abs (hL : Libm.Faithful) (h : Elements o ρ) (ht : Within t 43200) : |dragA (rec ρ r0) t.val| ≤ 10001 / 10 ^ 4 := by
  obtain ⟨a, b⟩ := dragA_bounds (r0 := r0) hL h ht
  rw [abs_of_pos (lt_of_lt_of_le (by norm_num) a)]; exact b
theorem axis_lo (hL : Libm.Faithful) (h : Elements o ρ) (ht : Within t 43200) : 191 / 10 ^ 2 ≤ semiMajor (rec ρ r0) t.val := by
  have h1 := (ao_bounds0 hL h).1
  have h2 := (dragA_bounds (r0 := r0) hL h ht).1
  have e : semiMajor (rec ρ r0) t.val = ao ρ * dragA (rec ρ r0) t.val * dragA (rec ρ r0) t.val := rfl
  rw [e]
  have h3 := mul_le_mul h1 h2 (by norm_num) (le_trans (by norm_num) h1)
  exact le_trans (by norm_num) (mul_le_mul h3 h2 (by norm_num) (le_trans (by norm_num) h3))

theorem p_a (hL : Libm.Faithful) (h : Elements o ρ) (ht : Within t 43200) : Q (semiMajor (rec o s0) t) (semiMajor (rec ρ r0) t.val) (965 / 10 ^ 2) (912 / 10 ^ 16) := by
  have g1 := (p_dragA (s0 := s0) (r0 := r0) hL h ht).bound (A' := 10001 / 10 ^ 4) (dragA_abs hL h ht)
  have g2 := ((i_ao hL h).mul g1).mono (A' := 964 / 10 ^ 2) (δ' := 818 / 10 ^ 16) (by norm_num) (by norm_num)
  have g3 := (g2.mul g1).mono (A' := 965 / 10 ^ 2) (δ' := 912 / 10 ^ 16) (by norm_num) (by norm_num)
  exact g3

theorem p_dragE (hL : Libm.Faithful) (h : Elements o ρ) (ht : Within t 43200) : Q (dragE (rec o s0) t) (dragE (rec ρ r0) t.val) (929 / 10 ^ 7) (118 / 10 ^ 17) := by
  have g1 := ((in_bstar h).mul (i_cc4 hL h)).mono (A' := 215 / 10 ^ 11) (δ' := 272 / 10 ^ 22) (by norm_num) (by norm_num)
  have g2 := (g1.mul (Q.exact ht.1 ht.2)).mono (A' := 929 / 10 ^ 7) (δ' := 118 / 10 ^ 17) (by norm_num) (by norm_num)
  exact g2

theorem p_dragL (hL : Libm.Faithful) (h : Elements o ρ) (ht : Within t 43200) : Q (dragL (rec o s0) t) (dragL (rec ρ r0) t.val) (393 / 10 ^ 2) (485 / 10 ^ 13) := by
  have g1 := ((Q.exact ht.1 ht.2).mul (Q.exact ht.1 ht.2)).mono (A' := 1870000000) (δ' := 208 / 10 ^ 9) (by norm_num) (by norm_num)
  have g2 := ((i_t2cof hL h).mul g1).mono (A' := 393 / 10 ^ 2) (δ' := 485 / 10 ^ 13) (by norm_num) (by norm_num)
  exact g2

theorem m_b4c (hL : Libm.Faithful) (h : Elements o ρ) : Q (((J2 * tsi o) / (ao o * psi o)) * ((-3.0 * con41 o * ((1.0 - (2.0 * eeta o)) + (etasq o * (1.5 - (0.5 * eeta o))))) + (0.75 * x1m o * ((2.0 * etasq o) - (eeta o * (1.0 + etasq o))) * Arith.cos (2.0 * o.xargpo)))) (((J2 * tsi ρ) / (ao ρ * psi ρ)) * ((-3.0 * con41 ρ * ((1.0 - (2.0 * eeta ρ)) + (etasq ρ * (1.5 - (0.5 * eeta ρ))))) + (0.75 * x1m ρ * ((2.0 * etasq ρ) - (eeta ρ * (1.0 + etasq ρ))) * Arith.cos (2.0 * ρ.xargpo)))) (59 / 10 ^ 3) (995 / 10 ^ 15) := by
  have g1 := (Q.int 20 true 1 2 (by norm_num)).mono (A' := 2) (δ' := 0) (by norm_num) le_rfl
  have g2 := Q.dyadic 5 true 1 1 1 (5 / 10 ^ 1) (by norm_num) (by norm_num)
  have g3 := Q.dyadic 15 true 1 3 1 (15 / 10 ^ 1) (by norm_num) (by norm_num)
  have g4 := (Q.int 10 true 1 1 (by norm_num)).mono (A' := 1) (δ' := 0) (by norm_num) le_rfl
  have g5 := (Q.int 30 true 1 3 (by norm_num)).mono (A' := 3) (δ' := 0) (by norm_num) le_rfl
  have g6 := Q.dyadic 75 true 2 3 2 (75 / 10 ^ 2) (by norm_num) (by norm_num)
  have g7 := (q_J2.mul (i_tsi hL h)).mono (A' := 123 / 10 ^ 5) (δ' := 995 / 10 ^ 19) (by norm_num) (by norm_num)
  have g8 := ((i_ao hL h).mul (i_psi hL h)).mono (A' := 963 / 10 ^ 2) (δ' := 679 / 10 ^ 14) (by norm_num) (by norm_num)
  have g9 := (g7.div g8 (42 / 10 ^ 2) (295 / 10 ^ 5) (apsi_lo hL h) (quot_le (m := 42 / 10 ^ 2) g7.mag (apsi_lo hL h) (by norm_num) (by norm_num))).mono (A' := 295 / 10 ^ 5) (δ' := 48 / 10 ^ 15) (by norm_num) (by norm_num)
  have g10 := (g1.mul (i_eeta hL h)).mono (A' := 722 / 10 ^ 3) (δ' := 327 / 10 ^ 15) (by norm_num) (by norm_num)
  have g11 := (g4.sub g10).mono (A' := 173 / 10 ^ 2) (δ' := 328 / 10 ^ 15) (by norm_num) (by norm_num)
  have g12 := (g2.mul (i_eeta hL h)).mono (A' := 181 / 10 ^ 3) (δ' := 816 / 10 ^ 16) (by norm_num) (by norm_num)
  have g13 := (g3.sub g12).mono (A' := 169 / 10 ^ 2) (δ' := 818 / 10 ^ 16) (by norm_num) (by norm_num)
  have g14 := ((i_etasq hL h).mul g13).mono (A' := 131 / 10 ^ 2) (δ' := 124 / 10 ^ 14) (by norm_num) (by norm_num)
  have g15 := (g11.add g14).mono (A' := 304 / 10 ^ 2) (δ' := 157 / 10 ^ 14) (by norm_num) (by norm_num)
  have g16 := (g5.neg).mono (A' := 3) (δ' := 0) (by norm_num) (by norm_num)
  have g17 := (g16.mul (i_con41 hL h)).mono (A' := 6) (δ' := 244 / 10 ^ 15) (by norm_num) (by norm_num)
  have g18 := (g17.mul g15).mono (A' := 183 / 10 ^ 1) (δ' := 102 / 10 ^ 13) (by norm_num) (by norm_num)
  have g19 := (g6.mul (i_x1m hL h)).mono (A' := 75 / 10 ^ 2) (δ' := 871 / 10 ^ 17) (by norm_num) (by norm_num)
  have g20 := (g1.mul (i_etasq hL h)).mono (A' := 155 / 10 ^ 2) (δ' := 14 / 10 ^ 13) (by norm_num) (by norm_num)
  have g21 := (g4.add (i_etasq hL h)).mono (A' := 178 / 10 ^ 2) (δ' := 697 / 10 ^ 15) (by norm_num) (by norm_num)
  have g22 := ((i_eeta hL h).mul g21).mono (A' := 643 / 10 ^ 3) (δ' := 542 / 10 ^ 15) (by norm_num) (by norm_num)
  have g23 := (g20.sub g22).mono (A' := 22 / 10 ^ 1) (δ' := 195 / 10 ^ 14) (by norm_num) (by norm_num)
  have g24 := (g19.mul g23).mono (A' := 165 / 10 ^ 2) (δ' := 149 / 10 ^ 14) (by norm_num) (by norm_num)
  have g25 := (g1.mul (in_argp h)).mono (A' := 126 / 10 ^ 1) (δ' := 94 / 10 ^ 16) (by norm_num) (by norm_num)
  have g26 := (g25.angle).mono (A' := 127 / 10 ^ 1) (δ' := 94 / 10 ^ 16) (by norm_num) (by norm_num)
  have g27 := (g26.cos hL).mono (A' := 1) (δ' := 13 / 10 ^ 15) (by norm_num) (by norm_num)
  have g28 := (g24.mul g27).mono (A' := 165 / 10 ^ 2) (δ' := 152 / 10 ^ 14) (by norm_num) (by norm_num)
  have g29 := (g18.add g28).mono (A' := 20) (δ' := 118 / 10 ^ 13) (by norm_num) (by norm_num)
  have g30 := (g9.mul g29).mono (A' := 59 / 10 ^ 3) (δ' := 995 / 10 ^ 15) (by norm_num) (by norm_num)
  exact g30

theorem s1S_le (hL : Libm.Faithful) (h : Elements o ρ) : |(pass (tq ρ) (fS ρ) (1.0 / no ρ)).s1| ≤ 182 / 10 ^ 4 * ρ.xecco := by
  have e : (pass (tq ρ) (fS ρ) (1.0 / no ρ)).s1 = -15.0 * ρ.xecco * (pass (tq ρ) (fS ρ) (1.0 / no ρ)).s4 := rfl
  rw [e, abs_mul, abs_mul, abs_of_nonneg h.ecc_lo]
  have h1 := (m_s4S hL h).mag
  have h2 := mul_le_mul_of_nonneg_left h1 h.ecc_lo
  have h3 : |(-15.0 : ℝ)| = 15 := by norm_num [abs_of_pos]
  rw [h3, mul_assoc]
  have h0 := h.ecc_lo
  norm_num at *; linarith

theorem s1M_le (hL : Libm.Faithful) (h : Elements o ρ) : |(pass (tq ρ) (fM ρ) (1.0 / no ρ)).s1| ≤ 29 / 10 ^ 4 * ρ.xecco := by
  have e : (pass (tq ρ) (fM ρ) (1.0 / no ρ)).s1 = -15.0 * ρ.xecco * (pass (tq ρ) (fM ρ) (1.0 / no ρ)).s4 := rfl
  rw [e, abs_mul, abs_mul, abs_of_nonneg h.ecc_lo]
  have h1 := (m_s4M hL h).mag
  have h2 := mul_le_mul_of_nonneg_left h1 h.ecc_lo
  have h3 : |(-15.0 : ℝ)| = 15 := by norm_num [abs_of_pos]
  rw [h3, mul_assoc]
  have h0 := h.ecc_lo
  norm_num at *; linarith

theorem dedt_le (hL : Libm.Faithful) (h : Elements o ρ) : |dedt ρ| ≤ 684 / 10 ^ 9 * ρ.xecco := by
  have e : dedt ρ = (pass (tq ρ) (fS ρ) (1.0 / no ρ)).s1 * 1.19459e-5 * (pass (tq ρ) (fS ρ) (1.0 / no ρ)).s5 +
    (pass (tq ρ) (fM ρ) (1.0 / no ρ)).s1 * 1.5835218e-4 * (pass (tq ρ) (fM ρ) (1.0 / no ρ)).s5 := rfl
  have a1 := s1S_le hL h
  have a2 := s1M_le hL h
  have c1 := (fS_s5 (y := 1.0 / no o) (υ := 1.0 / no ρ) hL h (frame_sun hL h)).mag
  have c2 := (fM_s5 (y := 1.0 / no o) (υ := 1.0 / no ρ) hL h (frame_moon hL h)).mag
  have h0 := h.ecc_lo
  rw [e]
  refine (abs_add_le _ _).trans ?_
  rw [abs_mul, abs_mul, abs_mul, abs_mul]
  have k1 : |(1.19459e-5 : ℝ)| = 1.19459e-5 := by norm_num [abs_of_pos]
  have k2 : |(1.5835218e-4 : ℝ)| = 1.5835218e-4 := by norm_num [abs_of_pos]
  rw [k1, k2]
  have t1 := mul_le_mul (mul_le_mul_of_nonneg_right a1 (by norm_num : (0:ℝ) ≤ 1.19459e-5)) c1 (abs_nonneg _) (by positivity)
  have t2 := mul_le_mul (mul_le_mul_of_nonneg_right a2 (by norm_num : (0:ℝ) ≤ 1.5835218e-4)) c2 (abs_nonneg _) (by positivity)
  norm_num at *; linarith
theorem b4_le (hL : Libm.Faithful) (h : Elements o ρ) : |b4 ρ| ≤ 72 / 10 * ρ.xecco + 7 / 10 ^ 2 := by
  have e : b4 ρ = (eta ρ * (2.0 + 0.5 * etasq ρ) + ρ.xecco * (0.5 + 2.0 * etasq ρ)) - (((J2 * tsi ρ) / (ao ρ * psi ρ)) * ((-3.0 * con41 ρ * ((1.0 - (2.0 * eeta ρ)) + (etasq ρ * (1.5 - (0.5 * eeta ρ))))) + (0.75 * x1m ρ * ((2.0 * etasq ρ) - (eeta ρ * (1.0 + etasq ρ))) * Arith.cos (2.0 * ρ.xargpo)))) := rfl
  have h0 := h.ecc_lo
  obtain ⟨e0, e1⟩ := eta_bounds hL h
  obtain ⟨q0, q1⟩ := etasq_bounds hL h
  have hm := (m_b4c hL h).mag
  rw [e]
  refine (abs_sub _ _).trans (add_le_add ?_ (hm.trans (by norm_num)))
  have u1 : (2.0 : ℝ) + 0.5 * etasq ρ ≤ 239 / 100 := by norm_num at *; linarith
  have u2 : (0.5 : ℝ) + 2.0 * etasq ρ ≤ 205 / 100 := by norm_num at *; linarith
  have v1 : (0 : ℝ) ≤ 2.0 + 0.5 * etasq ρ := by norm_num at *; linarith
  have v2 : (0 : ℝ) ≤ 0.5 + 2.0 * etasq ρ := by norm_num at *; linarith
  rw [abs_of_nonneg (add_nonneg (mul_nonneg e0 v1) (mul_nonneg h0 v2))]
  have w1 := mul_le_mul e1 u1 v1 (by positivity)
  have w2 := mul_le_mul_of_nonneg_left u2 h0
  norm_num at *; linarith

theorem dragE_le (hL : Libm.Faithful) (h : Elements o ρ) (ht : Within t 43200) : |dragE (rec ρ r0) t.val| ≤ 221 / 10 ^ 6 * ρ.xecco + 215 / 10 ^ 8 := by
  have e : dragE (rec ρ r0) t.val = ρ.xbstar * (2.0 * no ρ * coef1 ρ * ao ρ * ome ρ * b4 ρ) * t.val := rfl
  have h0 := h.ecc_lo
  have hb := b4_le hL h
  have c0 : |(2.0 : ℝ)| = 2 := by norm_num [abs_of_pos]
  rw [e, abs_mul, abs_mul, abs_mul, abs_mul, abs_mul, abs_mul, abs_mul, c0]
  have h1 := mul_le_mul (i_no hL h).mag (i_coef1 hL h).mag (abs_nonneg _) (by norm_num)
  have h2 := mul_le_mul h1 (i_ao hL h).mag (abs_nonneg _) (by norm_num)
  have h3 := mul_le_mul h2 (i_ome h).mag (abs_nonneg _) (by norm_num)
  have h4 := mul_le_mul h3 hb (abs_nonneg _) (by norm_num)
  have h5 := mul_le_mul h.bstar_hi h4 (by positivity) (by norm_num)
  have h6 := mul_le_mul h5 ht.2 (abs_nonneg _) (by positivity)
  have e2 : |ρ.xbstar| * (2 * |no ρ| * |coef1 ρ| * |ao ρ| * |ome ρ| * |b4 ρ|) * |t.val| = 2 * (|ρ.xbstar| * (|no ρ| * |coef1 ρ| * |ao ρ| * |ome ρ| * |b4 ρ|) * |t.val|) := by ring
  rw [e2]
  norm_num at *; linarith
theorem drift_le (hL : Libm.Faithful) (h : Elements o ρ) (ht : Within t 43200) : |dedt ρ * t.val| ≤ 3 / 10 ^ 2 * ρ.xecco := by
  rw [abs_mul]
  have h1 := mul_le_mul (dedt_le hL h) ht.2 (abs_nonneg _) (mul_nonneg (by norm_num) h.ecc_lo)
  have := h.ecc_lo
  norm_num at *; linarith
theorem meanEcc_bounds (hL : Libm.Faithful) (h : Elements o ρ) (ht : Within t 43200) :
    969 / 10 ^ 3 * ρ.xecco - 215 / 10 ^ 8 ≤ meanEcc (rec ρ r0) t.val ∧ meanEcc (rec ρ r0) t.val ≤ 1031 / 10 ^ 3 * ρ.xecco + 215 / 10 ^ 8 := by
  have e : meanEcc (rec ρ r0) t.val = (ρ.xecco + dedt ρ * t.val) - dragE (rec ρ r0) t.val := rfl
  obtain ⟨a1, a2⟩ := abs_le.mp (dragE_le (r0 := r0) hL h ht)
  obtain ⟨b1, b2⟩ := abs_le.mp (drift_le hL h ht)
  have := h.ecc_lo
  rw [e]; constructor <;> norm_num at * <;> linarith
theorem meanEcc_abs (hL : Libm.Faithful) (h : Elements o ρ) (ht : Within t 43200) : |meanEcc (rec ρ r0) t.val| ≤ 44 / 10 ^ 2 := by
  obtain ⟨a1, a2⟩ := meanEcc_bounds (r0 := r0) hL h ht
  have := h.ecc_lo
  have := h.ecc_hi
  rw [abs_le]; constructor <;> norm_num at * <;> linarith

theorem p_meanEcc (hL : Libm.Faithful) (h : Elements o ρ) (ht : Within t 43200) : Q (meanEcc (rec o s0) t) (meanEcc (rec ρ r0) t.val) (44 / 10 ^ 2) (387 / 10 ^ 14) := by
  have g1 := ((m_dedt hL h).mul (Q.exact ht.1 ht.2)).mono (A' := 123 / 10 ^ 4) (δ' := 385 / 10 ^ 14) (by norm_num) (by norm_num)
  have g2 := ((in_ecc h).add g1).mono (A' := 423 / 10 ^ 3) (δ' := 386 / 10 ^ 14) (by norm_num) (by norm_num)
  have g3 := (g2.sub' (p_dragE (s0 := s0) (r0 := r0) hL h ht) (44 / 10 ^ 2) (meanEcc_abs (r0 := r0) hL h ht)).mono (A' := 44 / 10 ^ 2) (δ' := 387 / 10 ^ 14) (by norm_num) (by norm_num)
  exact g3

theorem p_ecc (hL : Libm.Faithful) (h : Elements o ρ) (ht : Within t 43200) : Q (Spec.ecc (rec o s0) t) (Spec.ecc (rec ρ r0) t.val) (44 / 10 ^ 2) (388 / 10 ^ 14) := by
  have h1 := (Q.sci 10 true 7 (1 / 10 ^ 6) (by norm_num)).mono (A' := 44 / 10 ^ 2) (δ' := 1 / 10 ^ 6 / 2 ^ 53 + 1 / 2 ^ 153) (by norm_num) le_rfl
  exact ((p_meanEcc (s0 := s0) (r0 := r0) hL h ht).floorAt h1).mono le_rfl (by norm_num)

theorem p_nodeR (hL : Libm.Faithful) (h : Elements o ρ) (ht : Within t 43200) : QA (nodeR (rec o s0) t) (nodeR (rec ρ r0) t.val) (63 / 10 ^ 1) (485 / 10 ^ 15) := by
  have g1 := ((p_node (s0 := s0) (r0 := r0) hL h ht).angle).mono (A' := 712 / 10 ^ 2) (δ' := 484 / 10 ^ 15) (by norm_num) (by norm_num)
  have g2 := (g1.remT).mono (A' := 63 / 10 ^ 1) (δ' := 485 / 10 ^ 15) (by norm_num) (by norm_num)
  exact g2

theorem p_perigeeR (hL : Libm.Faithful) (h : Elements o ρ) (ht : Within t 43200) : QA (perigeeR (rec o s0) t) (perigeeR (rec ρ r0) t.val) (63 / 10 ^ 1) (975 / 10 ^ 15) := by
  have g1 := ((p_perigee (s0 := s0) (r0 := r0) hL h ht).angle).mono (A' := 79 / 10 ^ 1) (δ' := 973 / 10 ^ 15) (by norm_num) (by norm_num)
  have g2 := (g1.remT).mono (A' := 63 / 10 ^ 1) (δ' := 975 / 10 ^ 15) (by norm_num) (by norm_num)
  exact g2

theorem p_anomalyR (hL : Libm.Faithful) (h : Elements o ρ) (ht : Within t 43200) : QA (anomalyR (rec o s0) t) (anomalyR (rec ρ r0) t.val) (63 / 10 ^ 1) (121 / 10 ^ 13) := by
  have g1 := ((i_no hL h).mul (p_dragL (s0 := s0) (r0 := r0) hL h ht)).mono (A' := 11 / 10 ^ 2) (δ' := 136 / 10 ^ 14) (by norm_num) (by norm_num)
  have g2 := ((p_anomaly (s0 := s0) (r0 := r0) hL h ht).add g1).mono (A' := 1240) (δ' := 862 / 10 ^ 14) (by norm_num) (by norm_num)
  have g3 := (g2.add (p_perigee (s0 := s0) (r0 := r0) hL h ht)).mono (A' := 1250) (δ' := 974 / 10 ^ 14) (by norm_num) (by norm_num)
  have g4 := (g3.add (p_node (s0 := s0) (r0 := r0) hL h ht)).mono (A' := 1260) (δ' := 104 / 10 ^ 13) (by norm_num) (by norm_num)
  have g5 := (g4.angle).mono (A' := 1270) (δ' := 104 / 10 ^ 13) (by norm_num) (by norm_num)
  have g6 := (g5.remT).mono (A' := 63 / 10 ^ 1) (δ' := 105 / 10 ^ 13) (by norm_num) (by norm_num)
  have g7 := (g6.sub (p_perigeeR (s0 := s0) (r0 := r0) hL h ht)).mono (A' := 127 / 10 ^ 1) (δ' := 115 / 10 ^ 13) (by norm_num) (by norm_num)
  have g8 := (g7.sub (p_nodeR (s0 := s0) (r0 := r0) hL h ht)).mono (A' := 191 / 10 ^ 1) (δ' := 12 / 10 ^ 12) (by norm_num) (by norm_num)
  have g9 := (g8.remT).mono (A' := 63 / 10 ^ 1) (δ' := 121 / 10 ^ 13) (by norm_num) (by norm_num)
  exact g9

section
omit [Libm]
theorem f2_le (z : ℝ) : |(0.5 : ℝ) * Real.sin z * Real.sin z - 0.25| ≤ 25 / 10 ^ 2 := by
  have h1 := Real.sin_sq_le_one z
  have h2 := sq_nonneg (Real.sin z)
  rw [abs_le]; constructor <;> norm_num <;> nlinarith
theorem f3_le (z : ℝ) : |(-0.5 : ℝ) * Real.sin z * Real.cos z| ≤ 25 / 10 ^ 2 := by
  have h1 := Real.sin_sq_add_cos_sq z
  rw [abs_le]; constructor <;> norm_num <;> nlinarith [sq_nonneg (Real.sin z + Real.cos z), sq_nonneg (Real.sin z - Real.cos z)]
end

theorem p_zms (hL : Libm.Faithful) (h : Elements o ρ) (ht : Within t 43200) : QA (((ls o).zmos + 1.19459e-5 * t)) (((ls ρ).zmos + 1.19459e-5 * t.val)) (683 / 10 ^ 2) (172 / 10 ^ 13) := by
  have g1 := (Q.sci 119459 true 10 (12 / 10 ^ 6) (by norm_num)).mono (A' := 12 / 10 ^ 6) (δ' := 134 / 10 ^ 23) (by norm_num) (by norm_num)
  have g2 := (g1.mul (Q.exact ht.1 ht.2)).mono (A' := 519 / 10 ^ 3) (δ' := 116 / 10 ^ 18) (by norm_num) (by norm_num)
  have g3 := (g2.angle).mono (A' := 52 / 10 ^ 2) (δ' := 116 / 10 ^ 18) (by norm_num) (by norm_num)
  have g4 := ((m_zmos hL h).add g3).mono (A' := 683 / 10 ^ 2) (δ' := 172 / 10 ^ 13) (by norm_num) (by norm_num)
  exact g4

theorem p_zfs (hL : Libm.Faithful) (h : Elements o ρ) (ht : Within t 43200) : QA (((ls o).zmos + 1.19459e-5 * t) + 2.0 * (0.01675 : F64) * Arith.sin ((ls o).zmos + 1.19459e-5 * t)) (((ls ρ).zmos + 1.19459e-5 * t.val) + 2.0 * (0.01675 : ℝ) * Arith.sin ((ls ρ).zmos + 1.19459e-5 * t.val)) (687 / 10 ^ 2) (178 / 10 ^ 13) := by
  have g1 := (Q.int 20 true 1 2 (by norm_num)).mono (A' := 2) (δ' := 0) (by norm_num) le_rfl
  have g2 := (Q.sci 1675 true 5 (168 / 10 ^ 4) (by norm_num)).mono (A' := 168 / 10 ^ 4) (δ' := 187 / 10 ^ 20) (by norm_num) (by norm_num)
  have g3 := (g1.mul g2).mono (A' := 336 / 10 ^ 4) (δ' := 748 / 10 ^ 20) (by norm_num) (by norm_num)
  have g4 := ((p_zms hL h ht).sin hL).mono (A' := 1) (δ' := 173 / 10 ^ 13) (by norm_num) (by norm_num)
  have g5 := (g3.mul g4).mono (A' := 336 / 10 ^ 4) (δ' := 582 / 10 ^ 15) (by norm_num) (by norm_num)
  have g6 := (g5.angle).mono (A' := 337 / 10 ^ 4) (δ' := 582 / 10 ^ 15) (by norm_num) (by norm_num)
  have g7 := ((p_zms hL h ht).add g6).mono (A' := 687 / 10 ^ 2) (δ' := 178 / 10 ^ 13) (by norm_num) (by norm_num)
  exact g7

theorem p_f2s (hL : Libm.Faithful) (h : Elements o ρ) (ht : Within t 43200) : Q ((lsTerms (0.01675 : F64) ((ls o).zmos + 1.19459e-5 * t)).2.1) ((lsTerms (0.01675 : ℝ) ((ls ρ).zmos + 1.19459e-5 * t.val)).2.1) (25 / 10 ^ 2) (181 / 10 ^ 13) := by
  have g1 := ((p_zfs hL h ht).sin hL).mono (A' := 1) (δ' := 179 / 10 ^ 13) (by norm_num) (by norm_num)
  have g2 := Q.dyadic 5 true 1 1 1 (5 / 10 ^ 1) (by norm_num) (by norm_num)
  have g3 := (g2.mul g1).mono (A' := 5 / 10 ^ 1) (δ' := 896 / 10 ^ 14) (by norm_num) (by norm_num)
  have g4 := (g3.mul g1).mono (A' := 5 / 10 ^ 1) (δ' := 18 / 10 ^ 12) (by norm_num) (by norm_num)
  have g5 := Q.dyadic 25 true 2 1 2 (25 / 10 ^ 2) (by norm_num) (by norm_num)
  have g6 := (g4.sub' g5 (25 / 10 ^ 2) (f2_le _)).mono (A' := 25 / 10 ^ 2) (δ' := 181 / 10 ^ 13) (by norm_num) (by norm_num)
  exact g6

theorem p_f3s (hL : Libm.Faithful) (h : Elements o ρ) (ht : Within t 43200) : Q ((lsTerms (0.01675 : F64) ((ls o).zmos + 1.19459e-5 * t)).2.2) ((lsTerms (0.01675 : ℝ) ((ls ρ).zmos + 1.19459e-5 * t.val)).2.2) (25 / 10 ^ 2) (18 / 10 ^ 12) := by
  have g1 := ((p_zfs hL h ht).sin hL).mono (A' := 1) (δ' := 179 / 10 ^ 13) (by norm_num) (by norm_num)
  have g2 := ((p_zfs hL h ht).cos hL).mono (A' := 1) (δ' := 179 / 10 ^ 13) (by norm_num) (by norm_num)
  have g3 := Q.dyadic 5 true 1 1 1 (5 / 10 ^ 1) (by norm_num) (by norm_num)
  have g4 := (g3.neg).mono (A' := 5 / 10 ^ 1) (δ' := 0) (by norm_num) (by norm_num)
  have g5 := (g4.mul g1).mono (A' := 5 / 10 ^ 1) (δ' := 896 / 10 ^ 14) (by norm_num) (by norm_num)
  have g6 := (g5.mul g2).mono (A' := 5 / 10 ^ 1) (δ' := 18 / 10 ^ 12) (by norm_num) (by norm_num)
  have g7 := g6.bound (A' := 25 / 10 ^ 2) (f3_le _)
  exact g7

theorem p_zml (hL : Libm.Faithful) (h : Elements o ρ) (ht : Within t 43200) : QA (((ls o).zmol + 1.5835218e-4 * t)) (((ls ρ).zmol + 1.5835218e-4 * t.val)) (132 / 10 ^ 1) (232 / 10 ^ 12) := by
  have g1 := (Q.sci 15835218 true 11 (159 / 10 ^ 6) (by norm_num)).mono (A' := 159 / 10 ^ 6) (δ' := 177 / 10 ^ 22) (by norm_num) (by norm_num)
  have g2 := (g1.mul (Q.exact ht.1 ht.2)).mono (A' := 687 / 10 ^ 2) (δ' := 153 / 10 ^ 17) (by norm_num) (by norm_num)
  have g3 := (g2.angle).mono (A' := 688 / 10 ^ 2) (δ' := 153 / 10 ^ 17) (by norm_num) (by norm_num)
  have g4 := ((m_zmol hL h).add g3).mono (A' := 132 / 10 ^ 1) (δ' := 232 / 10 ^ 12) (by norm_num) (by norm_num)
  exact g4

theorem p_zfl (hL : Libm.Faithful) (h : Elements o ρ) (ht : Within t 43200) : QA (((ls o).zmol + 1.5835218e-4 * t) + 2.0 * (0.05490 : F64) * Arith.sin ((ls o).zmol + 1.5835218e-4 * t)) (((ls ρ).zmol + 1.5835218e-4 * t.val) + 2.0 * (0.05490 : ℝ) * Arith.sin ((ls ρ).zmol + 1.5835218e-4 * t.val)) (134 / 10 ^ 1) (258 / 10 ^ 12) := by
  have g1 := (Q.int 20 true 1 2 (by norm_num)).mono (A' := 2) (δ' := 0) (by norm_num) le_rfl
  have g2 := (Q.sci 5490 true 5 (549 / 10 ^ 4) (by norm_num)).mono (A' := 549 / 10 ^ 4) (δ' := 61 / 10 ^ 19) (by norm_num) (by norm_num)
  have g3 := (g1.mul g2).mono (A' := 11 / 10 ^ 2) (δ' := 244 / 10 ^ 19) (by norm_num) (by norm_num)
  have g4 := ((p_zml hL h ht).sin hL).mono (A' := 1) (δ' := 233 / 10 ^ 12) (by norm_num) (by norm_num)
  have g5 := (g3.mul g4).mono (A' := 11 / 10 ^ 2) (δ' := 257 / 10 ^ 13) (by norm_num) (by norm_num)
  have g6 := (g5.angle).mono (A' := 111 / 10 ^ 3) (δ' := 257 / 10 ^ 13) (by norm_num) (by norm_num)
  have g7 := ((p_zml hL h ht).add g6).mono (A' := 134 / 10 ^ 1) (δ' := 258 / 10 ^ 12) (by norm_num) (by norm_num)
  exact g7

theorem p_f2l (hL : Libm.Faithful) (h : Elements o ρ) (ht : Within t 43200) : Q ((lsTerms (0.05490 : F64) ((ls o).zmol + 1.5835218e-4 * t)).2.1) ((lsTerms (0.05490 : ℝ) ((ls ρ).zmol + 1.5835218e-4 * t.val)).2.1) (25 / 10 ^ 2) (261 / 10 ^ 12) := by
  have g1 := ((p_zfl hL h ht).sin hL).mono (A' := 1) (δ' := 259 / 10 ^ 12) (by norm_num) (by norm_num)
  have g2 := Q.dyadic 5 true 1 1 1 (5 / 10 ^ 1) (by norm_num) (by norm_num)
  have g3 := (g2.mul g1).mono (A' := 5 / 10 ^ 1) (δ' := 13 / 10 ^ 11) (by norm_num) (by norm_num)
  have g4 := (g3.mul g1).mono (A' := 5 / 10 ^ 1) (δ' := 26 / 10 ^ 11) (by norm_num) (by norm_num)
  have g5 := Q.dyadic 25 true 2 1 2 (25 / 10 ^ 2) (by norm_num) (by norm_num)
  have g6 := (g4.sub' g5 (25 / 10 ^ 2) (f2_le _)).mono (A' := 25 / 10 ^ 2) (δ' := 261 / 10 ^ 12) (by norm_num) (by norm_num)
  exact g6

theorem p_f3l (hL : Libm.Faithful) (h : Elements o ρ) (ht : Within t 43200) : Q ((lsTerms (0.05490 : F64) ((ls o).zmol + 1.5835218e-4 * t)).2.2) ((lsTerms (0.05490 : ℝ) ((ls ρ).zmol + 1.5835218e-4 * t.val)).2.2) (25 / 10 ^ 2) (26 / 10 ^ 11) := by
  have g1 := ((p_zfl hL h ht).sin hL).mono (A' := 1) (δ' := 259 / 10 ^ 12) (by norm_num) (by norm_num)
  have g2 := ((p_zfl hL h ht).cos hL).mono (A' := 1) (δ' := 259 / 10 ^ 12) (by norm_num) (by norm_num)
  have g3 := Q.dyadic 5 true 1 1 1 (5 / 10 ^ 1) (by norm_num) (by norm_num)
  have g4 := (g3.neg).mono (A' := 5 / 10 ^ 1) (δ' := 0) (by norm_num) (by norm_num)
  have g5 := (g4.mul g1).mono (A' := 5 / 10 ^ 1) (δ' := 13 / 10 ^ 11) (by norm_num) (by norm_num)
  have g6 := (g5.mul g2).mono (A' := 5 / 10 ^ 1) (δ' := 26 / 10 ^ 11) (by norm_num) (by norm_num)
  have g7 := g6.bound (A' := 25 / 10 ^ 2) (f3_le _)
  exact g7

theorem p_pe (hL : Libm.Faithful) (h : Elements o ρ) (ht : Within t 43200) : Q (periodics { rec o s0 with t := t } .N).pe (periodics { rec ρ r0 with t := t.val } .N).pe (877 / 10 ^ 5) (238 / 10 ^ 14) := by
  have g1 := ((m_se2 hL h).mul (p_f2s hL h ht)).mono (A' := 378 / 10 ^ 5) (δ' := 275 / 10 ^ 15) (by norm_num) (by norm_num)
  have g2 := ((m_se3 hL h).mul (p_f3s hL h ht)).mono (A' := 378 / 10 ^ 5) (δ' := 274 / 10 ^ 15) (by norm_num) (by norm_num)
  have g3 := (g1.add g2).mono (A' := 756 / 10 ^ 5) (δ' := 55 / 10 ^ 14) (by norm_num) (by norm_num)
  have g4 := ((m_ee2 hL h).mul (p_f2l hL h ht)).mono (A' := 603 / 10 ^ 6) (δ' := 91 / 10 ^ 14) (by norm_num) (by norm_num)
  have g5 := ((m_e3 hL h).mul (p_f3l hL h ht)).mono (A' := 603 / 10 ^ 6) (δ' := 907 / 10 ^ 15) (by norm_num) (by norm_num)
  have g6 := (g4.add g5).mono (A' := 121 / 10 ^ 5) (δ' := 182 / 10 ^ 14) (by norm_num) (by norm_num)
  have g7 := (g3.add g6).mono (A' := 877 / 10 ^ 5) (δ' := 238 / 10 ^ 14) (by norm_num) (by norm_num)
  exact g7

theorem p_pinc (hL : Libm.Faithful) (h : Elements o ρ) (ht : Within t 43200) : Q (periodics { rec o s0 with t := t } .N).pinc (periodics { rec ρ r0 with t := t.val } .N).pinc (179 / 10 ^ 4) (404 / 10 ^ 14) := by
  have g1 := ((m_si2 hL h).mul (p_f2s hL h ht)).mono (A' := 768 / 10 ^ 5) (δ' := 557 / 10 ^ 15) (by norm_num) (by norm_num)
  have g2 := ((m_si3 hL h).mul (p_f3s hL h ht)).mono (A' := 765 / 10 ^ 5) (δ' := 552 / 10 ^ 15) (by norm_num) (by norm_num)
  have g3 := (g1.add g2).mono (A' := 154 / 10 ^ 4) (δ' := 111 / 10 ^ 14) (by norm_num) (by norm_num)
  have g4 := ((m_xi2 hL h).mul (p_f2l hL h ht)).mono (A' := 123 / 10 ^ 5) (δ' := 146 / 10 ^ 14) (by norm_num) (by norm_num)
  have g5 := ((m_xi3 hL h).mul (p_f3l hL h ht)).mono (A' := 122 / 10 ^ 5) (δ' := 145 / 10 ^ 14) (by norm_num) (by norm_num)
  have g6 := (g4.add g5).mono (A' := 245 / 10 ^ 5) (δ' := 292 / 10 ^ 14) (by norm_num) (by norm_num)
  have g7 := (g3.add g6).mono (A' := 179 / 10 ^ 4) (δ' := 404 / 10 ^ 14) (by norm_num) (by norm_num)
  exact g7

theorem p_ep (hL : Libm.Faithful) (h : Elements o ρ) (ht : Within t 43200) : Q (perturbed (rec o s0) t).ep (perturbed (rec ρ r0) t.val).ep (449 / 10 ^ 3) (628 / 10 ^ 14) := by
  rw [(perturbed_ep_incl (rec o s0) t).1, (perturbed_ep_incl (rec ρ r0) t.val).1]
  have g1 := (Q.int 0 true 1 0 (by norm_num)).mono (A' := 0) (δ' := 0) (by norm_num) le_rfl
  have g2 := ((p_pe (s0 := s0) (r0 := r0) hL h ht).sub g1).mono (A' := 877 / 10 ^ 5) (δ' := 239 / 10 ^ 14) (by norm_num) (by norm_num)
  have g3 := ((p_ecc (s0 := s0) (r0 := r0) hL h ht).add g2).mono (A' := 449 / 10 ^ 3) (δ' := 628 / 10 ^ 14) (by norm_num) (by norm_num)
  exact g3

theorem p_incl (hL : Libm.Faithful) (h : Elements o ρ) (ht : Within t 43200) : Q (Spec.incl (rec o s0) t) (Spec.incl (rec ρ r0) t.val) (282 / 10 ^ 2) (406 / 10 ^ 14) := by
  have hD : (rec o s0).method = .D := rfl
  have hD' : (rec ρ r0).method = .D := rfl
  unfold Spec.incl
  rw [if_pos hD, if_pos hD']
  refine F64.Q.absIf ?_
  rw [(perturbed_ep_incl (rec o s0) t).2, (perturbed_ep_incl (rec ρ r0) t.val).2]
  have g1 := (Q.int 0 true 1 0 (by norm_num)).mono (A' := 0) (δ' := 0) (by norm_num) le_rfl
  have g2 := ((p_pinc (s0 := s0) (r0 := r0) hL h ht).sub g1).mono (A' := 179 / 10 ^ 4) (δ' := 405 / 10 ^ 14) (by norm_num) (by norm_num)
  have g3 := ((in_incl h).add g2).mono (A' := 282 / 10 ^ 2) (δ' := 406 / 10 ^ 14) (by norm_num) (by norm_num)
  exact g3

theorem cos_lo (hL : Libm.Faithful) (h : Elements o ρ) (ht : Within t 43200) : 5 / 10 ^ 2 ≤ 1 + Real.cos (Spec.incl (rec ρ r0) t.val) := by
  have h1 := (p_incl (s0 := rec o Satrec.zero) (r0 := r0) hL h ht).mag
  rw [← Real.cos_abs]
  have h2 : Real.cos 2.82 ≤ Real.cos |Spec.incl (rec ρ r0) t.val| :=
    Real.cos_le_cos_of_nonneg_of_le_pi (abs_nonneg _) (by have := Real.pi_gt_d4; norm_num at *; linarith) (h1.trans (by norm_num))
  have h3 : Real.cos 2.82 = -Real.cos (Real.pi - 2.82) := by rw [Real.cos_pi_sub, neg_neg]
  have p1 := Real.pi_gt_d4
  have p2 := Real.pi_lt_d4
  have h4 : Real.cos (Real.pi - 2.82) ≤ Real.cos 0.3215 :=
    Real.cos_le_cos_of_nonneg_of_le_pi (by norm_num) (by linarith) (by norm_num at *; linarith)
  have h5 := (abs_le.mp (Real.cos_bound (x := 0.3215) (by norm_num [abs_of_pos]))).2
  rw [abs_of_pos (by norm_num : (0 : ℝ) < 0.3215)] at h5
  norm_num at *; linarith
theorem ep_lo (hL : Libm.Faithful) (h : Elements o ρ) (ht : Within t 43200) : 5 / 10 ^ 7 ≤ (perturbed (rec ρ r0) t.val).ep := by
  rw [(perturbed_ep_incl (rec ρ r0) t.val).1]
  have e : (periodics { rec ρ r0 with t := t.val } .N).pe - (rec ρ r0).peo =
      2.0 * (pass (tq ρ) (fS ρ) (1.0 / no ρ)).s1 * (pass (tq ρ) (fS ρ) (1.0 / no ρ)).s6 * (lsTerms (0.01675 : ℝ) ((ls ρ).zmos + 1.19459e-5 * t.val)).2.1 +
      2.0 * (pass (tq ρ) (fS ρ) (1.0 / no ρ)).s1 * (pass (tq ρ) (fS ρ) (1.0 / no ρ)).s7 * (lsTerms (0.01675 : ℝ) ((ls ρ).zmos + 1.19459e-5 * t.val)).2.2 +
      (2.0 * (pass (tq ρ) (fM ρ) (1.0 / no ρ)).s1 * (pass (tq ρ) (fM ρ) (1.0 / no ρ)).s6 * (lsTerms (0.05490 : ℝ) ((ls ρ).zmol + 1.5835218e-4 * t.val)).2.1 +
      2.0 * (pass (tq ρ) (fM ρ) (1.0 / no ρ)).s1 * (pass (tq ρ) (fM ρ) (1.0 / no ρ)).s7 * (lsTerms (0.05490 : ℝ) ((ls ρ).zmol + 1.5835218e-4 * t.val)).2.2) - 0.0 := rfl
  have h0 := h.ecc_lo
  have key : ∀ s x f B : ℝ, 0 ≤ B → |s| ≤ B * ρ.xecco → |x| ≤ 101 / 10 ^ 2 → |f| ≤ 25 / 10 ^ 2 → |2.0 * s * x * f| ≤ B * ρ.xecco * (505 / 10 ^ 3) := by
    intro s x f B hB hs hx hf
    rw [abs_mul, abs_mul, abs_mul]
    have c0 : |(2.0 : ℝ)| = 2 := by norm_num [abs_of_pos]
    have h1 := mul_le_mul hs hx (abs_nonneg _) (by positivity)
    have h2 := mul_le_mul h1 hf (abs_nonneg _) (by positivity)
    have e2 : |(2.0 : ℝ)| * |s| * |x| * |f| = 2 * (|s| * |x| * |f|) := by rw [c0]; ring
    rw [e2]
    refine (mul_le_mul_of_nonneg_left h2 (by norm_num : (0 : ℝ) ≤ 2)).trans (le_of_eq ?_)
    norm_num; ring
  have fs := frame_sun hL h
  have fm := frame_moon hL h
  have t1 := key _ _ _ _ (by norm_num) (s1S_le hL h) (fS_s6 (y := 1.0 / no o) (υ := 1.0 / no ρ) hL h fs).mag (p_f2s hL h ht).mag
  have t2 := key _ _ _ _ (by norm_num) (s1S_le hL h) (fS_s7 (y := 1.0 / no o) (υ := 1.0 / no ρ) hL h fs).mag (p_f3s hL h ht).mag
  have t3 := key _ _ _ _ (by norm_num) (s1M_le hL h) (fM_s6 (y := 1.0 / no o) (υ := 1.0 / no ρ) hL h fm).mag (p_f2l hL h ht).mag
  have t4 := key _ _ _ _ (by norm_num) (s1M_le hL h) (fM_s7 (y := 1.0 / no o) (υ := 1.0 / no ρ) hL h fm).mag (p_f3l hL h ht).mag
  rw [e]
  obtain ⟨a1, -⟩ := abs_le.mp t1
  obtain ⟨a2, -⟩ := abs_le.mp t2
  obtain ⟨a3, -⟩ := abs_le.mp t3
  obtain ⟨a4, -⟩ := abs_le.mp t4
  have em := (meanEcc_bounds (r0 := r0) hL h ht).1
  have ex : (1 / 10 ^ 6 : ℝ) ≤ Spec.ecc (rec ρ r0) t.val ∧ meanEcc (rec ρ r0) t.val ≤ Spec.ecc (rec ρ r0) t.val := by
    unfold Spec.ecc
    rw [real_flt]
    by_cases hc : meanEcc (rec ρ r0) t.val < 1.0e-6
    · rw [if_pos (by simpa using hc)]; exact ⟨by norm_num, hc.le⟩
    · rw [if_neg (by simpa using hc)]
      exact ⟨by have := not_lt.mp hc; norm_num at *; linarith, le_rfl⟩
  obtain ⟨x1, x2⟩ := ex
  generalize 2.0 * (pass (tq ρ) (fS ρ) (1.0 / no ρ)).s1 * (pass (tq ρ) (fS ρ) (1.0 / no ρ)).s6 * (lsTerms (0.01675 : ℝ) ((ls ρ).zmos + 1.19459e-5 * t.val)).2.1 = y1 at *
  generalize 2.0 * (pass (tq ρ) (fS ρ) (1.0 / no ρ)).s1 * (pass (tq ρ) (fS ρ) (1.0 / no ρ)).s7 * (lsTerms (0.01675 : ℝ) ((ls ρ).zmos + 1.19459e-5 * t.val)).2.2 = y2 at *
  generalize 2.0 * (pass (tq ρ) (fM ρ) (1.0 / no ρ)).s1 * (pass (tq ρ) (fM ρ) (1.0 / no ρ)).s6 * (lsTerms (0.05490 : ℝ) ((ls ρ).zmol + 1.5835218e-4 * t.val)).2.1 = y3 at *
  generalize 2.0 * (pass (tq ρ) (fM ρ) (1.0 / no ρ)).s1 * (pass (tq ρ) (fM ρ) (1.0 / no ρ)).s7 * (lsTerms (0.05490 : ℝ) ((ls ρ).zmol + 1.5835218e-4 * t.val)).2.2 = y4 at *
  generalize Spec.ecc (rec ρ r0) t.val = E at *
  generalize meanEcc (rec ρ r0) t.val = M at *
  generalize ρ.xecco = u at *
  clear key e t1 t2 t3 t4 fs fm
  by_cases hc : u ≤ 1 / 10 ^ 5
  · norm_num at *; linarith
  · rw [not_le] at hc
    norm_num at *; linarith

theorem p_ay (hL : Libm.Faithful) (h : Elements o ρ) (ht : Within t 43200) : Q (ayCoef (rec o s0) t) (ayCoef (rec ρ r0) t.val) (12 / 10 ^ 4) (489 / 10 ^ 17) := by
  have hD : (rec o s0).method = .D := rfl
  have hD' : (rec ρ r0).method = .D := rfl
  have g1 := Q.dyadic 5 true 1 1 1 (5 / 10 ^ 1) (by norm_num) (by norm_num)
  have g2 := (g1.neg).mono (A' := 5 / 10 ^ 1) (δ' := 0) (by norm_num) (by norm_num)
  have g3 := (g2.mul q_J3OJ2).mono (A' := 12 / 10 ^ 4) (δ' := 533 / 10 ^ 21) (by norm_num) (by norm_num)
  have g4 := ((p_incl (s0 := s0) (r0 := r0) hL h ht).angle).mono (A' := 283 / 10 ^ 2) (δ' := 406 / 10 ^ 14) (by norm_num) (by norm_num)
  have g5 := (g4.sin hL).mono (A' := 1) (δ' := 407 / 10 ^ 14) (by norm_num) (by norm_num)
  have g6 := (g3.mul g5).mono (A' := 12 / 10 ^ 4) (δ' := 489 / 10 ^ 17) (by norm_num) (by norm_num)
  unfold ayCoef
  rw [if_pos hD, if_pos hD']
  exact g6

theorem p_xl (hL : Libm.Faithful) (h : Elements o ρ) (ht : Within t 43200) : Q (xlCoef (rec o s0) t) (xlCoef (rec ρ r0) t.val) (1 / 10 ^ 1) (881 / 10 ^ 14) := by
  have hD : (rec o s0).method = .D := rfl
  have hD' : (rec ρ r0).method = .D := rfl
  have hden : 5 / 10 ^ 2 ≤ |(1.0 : ℝ) + Real.cos (Spec.incl (rec ρ r0) t.val)| := le_trans (by have := cos_lo (r0 := r0) hL h ht; norm_num at *; linarith) (le_abs_self _)
  have g1 := ((p_incl (s0 := s0) (r0 := r0) hL h ht).angle).mono (A' := 283 / 10 ^ 2) (δ' := 406 / 10 ^ 14) (by norm_num) (by norm_num)
  have g2 := (g1.sin hL).mono (A' := 1) (δ' := 407 / 10 ^ 14) (by norm_num) (by norm_num)
  have g3 := ((p_incl (s0 := s0) (r0 := r0) hL h ht).angle).mono (A' := 283 / 10 ^ 2) (δ' := 406 / 10 ^ 14) (by norm_num) (by norm_num)
  have g4 := (g3.cos hL).mono (A' := 1) (δ' := 407 / 10 ^ 14) (by norm_num) (by norm_num)
  have g5 := Q.dyadic 25 true 2 1 2 (25 / 10 ^ 2) (by norm_num) (by norm_num)
  have g6 := (g5.neg).mono (A' := 25 / 10 ^ 2) (δ' := 0) (by norm_num) (by norm_num)
  have g7 := (g6.mul q_J3OJ2).mono (A' := 6 / 10 ^ 4) (δ' := 267 / 10 ^ 21) (by norm_num) (by norm_num)
  have g8 := (g7.mul g2).mono (A' := 6 / 10 ^ 4) (δ' := 245 / 10 ^ 17) (by norm_num) (by norm_num)
  have g9 := (Q.int 30 true 1 3 (by norm_num)).mono (A' := 3) (δ' := 0) (by norm_num) le_rfl
  have g10 := (Q.int 50 true 1 5 (by norm_num)).mono (A' := 5) (δ' := 0) (by norm_num) le_rfl
  have g11 := (g10.mul g4).mono (A' := 5) (δ' := 204 / 10 ^ 13) (by norm_num) (by norm_num)
  have g12 := (g9.add g11).mono (A' := 8) (δ' := 205 / 10 ^ 13) (by norm_num) (by norm_num)
  have g13 := (g8.mul g12).mono (A' := 48 / 10 ^ 4) (δ' := 32 / 10 ^ 15) (by norm_num) (by norm_num)
  have g14 := (Q.int 10 true 1 1 (by norm_num)).mono (A' := 1) (δ' := 0) (by norm_num) le_rfl
  have g15 := (g14.add g4).mono (A' := 2) (δ' := 408 / 10 ^ 14) (by norm_num) (by norm_num)
  have g16 := (g13.div g15 (5 / 10 ^ 2) (1 / 10 ^ 1) hden (quot_le (m := 5 / 10 ^ 2) g13.mag hden (by norm_num) (by norm_num))).mono (A' := 1 / 10 ^ 1) (δ' := 881 / 10 ^ 14) (by norm_num) (by norm_num)
  have g17 := (Q.int 10 true 1 1 (by norm_num)).mono (A' := 1) (δ' := 0) (by norm_num) le_rfl
  have g18 := (g4.add g17).mono (A' := 2) (δ' := 408 / 10 ^ 14) (by norm_num) (by norm_num)
  have b1 : (Arith.abs (Arith.cos (Spec.incl (rec o s0) t) + 1.0) >. (1.5e-12 : F64)) = true := by
    have q1 := g18.abs
    have q2 := Q.sci 15 true 13 (15 / 10 ^ 13) (by norm_num)
    refine (flt_fin q2.fin q1.fin).mpr ?_
    have e1 := (abs_le.mp q1.err).1
    have e2 := (abs_le.mp q2.err).2
    have e3 : (1 : ℝ) / 100 ≤ |Real.cos (Spec.incl (rec ρ r0) t.val) + 1.0| := le_trans (by have := cos_lo (r0 := r0) hL h ht; norm_num at *; linarith) (le_abs_self _)
    have e3' : (1 : ℝ) / 100 ≤ |Real.cos (Spec.incl (rec ρ r0) t.val) + (OfScientific.ofScientific 10 true 1 : ℝ)| := e3
    generalize (OfScientific.ofScientific 15 true 13 : F64).val = w at *
    generalize |Real.cos (Spec.incl (rec ρ r0) t.val) + (OfScientific.ofScientific 10 true 1 : ℝ)| = w' at *
    generalize (Arith.abs (Arith.cos (Spec.incl (rec o s0) t) + (OfScientific.ofScientific 10 true 1 : F64))).val = w'' at *
    norm_num at e1 e2 e3' ⊢; linarith
  have b2 : (Arith.abs (Arith.cos (Spec.incl (rec ρ r0) t.val) + 1.0) >. (1.5e-12 : ℝ)) = true := by
    rw [real_flt, decide_eq_true_eq]
    have e3 : (1 : ℝ) / 100 ≤ |Real.cos (Spec.incl (rec ρ r0) t.val) + 1.0| := le_trans (by have := cos_lo (r0 := r0) hL h ht; norm_num at *; linarith) (le_abs_self _)
    change (1.5e-12 : ℝ) < |Real.cos (Spec.incl (rec ρ r0) t.val) + 1.0|
    norm_num at e3 ⊢; linarith
  unfold xlCoef
  rw [if_pos hD, if_pos hD', if_pos b1, if_pos b2]
  exact g16

theorem p_c3 (hL : Libm.Faithful) (h : Elements o ρ) (ht : Within t 43200) : Q (threeCos (rec o s0) t) (threeCos (rec ρ r0) t.val) (4) (246 / 10 ^ 13) := by
  have hD : (rec o s0).method = .D := rfl
  have hD' : (rec ρ r0).method = .D := rfl
  have g1 := ((p_incl (s0 := s0) (r0 := r0) hL h ht).angle).mono (A' := 283 / 10 ^ 2) (δ' := 406 / 10 ^ 14) (by norm_num) (by norm_num)
  have g2 := (g1.cos hL).mono (A' := 1) (δ' := 407 / 10 ^ 14) (by norm_num) (by norm_num)
  have g3 := (g2.mul g2).mono (A' := 1) (δ' := 815 / 10 ^ 14) (by norm_num) (by norm_num)
  have g4 := (Q.int 30 true 1 3 (by norm_num)).mono (A' := 3) (δ' := 0) (by norm_num) le_rfl
  have g5 := (g4.mul g3).mono (A' := 3) (δ' := 245 / 10 ^ 13) (by norm_num) (by norm_num)
  have g6 := (Q.int 10 true 1 1 (by norm_num)).mono (A' := 1) (δ' := 0) (by norm_num) le_rfl
  have g7 := (g5.sub g6).mono (A' := 4) (δ' := 246 / 10 ^ 13) (by norm_num) (by norm_num)
  unfold threeCos
  rw [if_pos hD, if_pos hD']
  exact g7

theorem p_c1 (hL : Libm.Faithful) (h : Elements o ρ) (ht : Within t 43200) : Q (oneMinusCos (rec o s0) t) (oneMinusCos (rec ρ r0) t.val) (2) (816 / 10 ^ 14) := by
  have hD : (rec o s0).method = .D := rfl
  have hD' : (rec ρ r0).method = .D := rfl
  have g1 := ((p_incl (s0 := s0) (r0 := r0) hL h ht).angle).mono (A' := 283 / 10 ^ 2) (δ' := 406 / 10 ^ 14) (by norm_num) (by norm_num)
  have g2 := (g1.cos hL).mono (A' := 1) (δ' := 407 / 10 ^ 14) (by norm_num) (by norm_num)
  have g3 := (g2.mul g2).mono (A' := 1) (δ' := 815 / 10 ^ 14) (by norm_num) (by norm_num)
  have g4 := (Q.int 10 true 1 1 (by norm_num)).mono (A' := 1) (δ' := 0) (by norm_num) le_rfl
  have g5 := (g4.sub g3).mono (A' := 2) (δ' := 816 / 10 ^ 14) (by norm_num) (by norm_num)
  unfold oneMinusCos
  rw [if_pos hD, if_pos hD']
  exact g5

theorem p_c7 (hL : Libm.Faithful) (h : Elements o ρ) (ht : Within t 43200) : Q (sevenCos (rec o s0) t) (sevenCos (rec ρ r0) t.val) (8) (572 / 10 ^ 13) := by
  have hD : (rec o s0).method = .D := rfl
  have hD' : (rec ρ r0).method = .D := rfl
  have g1 := ((p_incl (s0 := s0) (r0 := r0) hL h ht).angle).mono (A' := 283 / 10 ^ 2) (δ' := 406 / 10 ^ 14) (by norm_num) (by norm_num)
  have g2 := (g1.cos hL).mono (A' := 1) (δ' := 407 / 10 ^ 14) (by norm_num) (by norm_num)
  have g3 := (g2.mul g2).mono (A' := 1) (δ' := 815 / 10 ^ 14) (by norm_num) (by norm_num)
  have g4 := (Q.int 70 true 1 7 (by norm_num)).mono (A' := 7) (δ' := 0) (by norm_num) le_rfl
  have g5 := (g4.mul g3).mono (A' := 7) (δ' := 571 / 10 ^ 13) (by norm_num) (by norm_num)
  have g6 := (Q.int 10 true 1 1 (by norm_num)).mono (A' := 1) (δ' := 0) (by norm_num) le_rfl
  have g7 := (g5.sub g6).mono (A' := 8) (δ' := 572 / 10 ^ 13) (by norm_num) (by norm_num)
  unfold sevenCos
  rw [if_pos hD, if_pos hD']
  exact g7

/-- the first half of the propagator -/
theorem p_mid (hL : Libm.Faithful) (h : Elements o ρ) (ht : Within t 43200) : Mid (rec o s0) t (rec ρ r0) t.val :=
  ⟨(p_a hL h ht).mono (by norm_num) (by norm_num), le_trans (by norm_num) (axis_lo hL h ht), (p_ecc hL h ht).mono le_rfl (by norm_num),
   (p_nodeR hL h ht).mono (by norm_num) (by norm_num), (p_perigeeR hL h ht).mono (by norm_num) (by norm_num),
   (p_anomalyR hL h ht).mono (by norm_num) (by norm_num), (p_incl hL h ht).mono (by norm_num) (by norm_num),
   (p_ay hL h ht).mono (by norm_num) (by norm_num), (p_xl hL h ht).mono (by norm_num) (by norm_num), (p_c3 hL h ht).mono (by norm_num) (by norm_num),
   (p_c1 hL h ht).mono (by norm_num) (by norm_num), (p_c7 hL h ht).mono (by norm_num) (by norm_num)⟩

/-! ## The outcome -/

/-- a lower bound of the distance -/
theorem radius_far (hL : Libm.Faithful) (h : Elements o ρ) (ht : Within t 43200) : 103 / 10 ^ 2 ≤ radius (rec ρ r0) t.val := by
  have hm := p_mid (s0 := rec o Satrec.zero) (r0 := r0) hL h ht
  have hA := axis_lo (r0 := r0) hL h ht
  have hE := hm.e.mag
  generalize (rec ρ r0) = r at *
  generalize t.val = τ at *
  have h1 : |invP r τ * ayCoef r τ| ≤ 0.0034 := by
    rw [abs_mul]
    exact (mul_le_mul ((t_invP hL hm).mag.trans (show _ ≤ (1.7 : ℝ) by norm_num)) hm.ay.mag (abs_nonneg _) (by norm_num)).trans (by norm_num)
  have h2 : axn r τ ^ 2 + ayn r τ ^ 2 ≤ (44 / 10 ^ 2 + 0.0034) ^ 2 := plane_add (Real.sin_sq_add_cos_sq (perigeeR r τ)) hE h1
  have h3 : |axn r τ * (sinCosE r τ).2 - ayn r τ * (-(sinCosE r τ).1)| ≤ (44 / 10 ^ 2 + 0.0034) * 1 :=
    plane_cauchy h2 (by norm_num) (by have := (t_sinCos hL hm).2.2; norm_num; linarith) (by norm_num)
  have h4 : 55 / 10 ^ 2 ≤ oneE r τ := by
    have e : oneE r τ = 1 - (axn r τ * (sinCosE r τ).2 + ayn r τ * (sinCosE r τ).1) := by unfold oneE; norm_num
    have := (abs_le.mp h3).2
    rw [e]; norm_num at *; linarith
  have h5 : 105 / 10 ^ 2 ≤ radius0 r τ := by
    have e : radius0 r τ = semiMajor r τ * oneE r τ := rfl
    rw [e]; exact le_trans (by norm_num) (mul_le_mul hA h4 (by norm_num) (le_trans (by norm_num) hA))
  have b1 : |1.5 * Spec.k2 r τ * beta r τ * threeCos r τ| ≤ 0.01 := by
    refine (abs_mul4 (show |(1.5 : ℝ)| ≤ 1.5 by norm_num [abs_of_pos]) (t_k2 hL hm).mag (t_beta hL hm).mag hm.c3.mag).trans ?_
    norm_num
  have b2 : |0.5 * k1 r τ * oneMinusCos r τ * cos2u r τ| ≤ 0.001 := by
    refine (abs_mul4 (show |(0.5 : ℝ)| ≤ 0.5 by norm_num [abs_of_pos]) (t_k1 hL hm).mag hm.c1.mag (t_cos2u hL hm).mag).trans ?_
    norm_num
  have e : radius r τ = radius0 r τ * (1.0 - 1.5 * Spec.k2 r τ * beta r τ * threeCos r τ) + 0.5 * k1 r τ * oneMinusCos r τ * cos2u r τ := rfl
  rw [e]
  have b1' := (abs_le.mp b1).2
  have b2' := (abs_le.mp b2).1
  have h6 : (105 / 10 ^ 2 : ℝ) * 0.99 ≤ radius0 r τ * (1.0 - 1.5 * Spec.k2 r τ * beta r τ * threeCos r τ) :=
    mul_le_mul h5 (by norm_num at *; linarith) (by norm_num) (le_trans (by norm_num) h5)
  norm_num at *; linarith

theorem state_close (hL : Libm.Faithful) {s : Satrec F64} {t : F64} {r : Satrec ℝ} {τ : ℝ} (h : Mid s t r τ) :
    (position s t).Close (position r τ) (1 / 10 ^ 3) ∧ (velocity s t).Close (velocity r τ) (1 / 10 ^ 6) :=
  ⟨⟨(t_posx hL h).close (by norm_num), (t_posy hL h).close (by norm_num), (t_posz hL h).close (by norm_num)⟩,
   ⟨(t_velx hL h).close (by norm_num), (t_vely hL h).close (by norm_num), (t_velz hL h).close (by norm_num)⟩⟩

/-- the distance lies between 1.03 and 15.6 earth radii, the speed is below 41 km/s in every component; the position lies on a plane through the centre
of the earth that is inclined to the equator by `i` up to 0.0182 rad -/
def Between (i : ℝ) (q : SGP4Result ℝ) : Prop :=
  ∃ R : ℝ, 103 / 10 ^ 2 ≤ R ∧ R ≤ 156 / 10 ^ 1 ∧ q.position.x ^ 2 + q.position.y ^ 2 + q.position.z ^ 2 = (R * 6378.137) ^ 2 ∧
    (|q.velocity.x| ≤ 41 ∧ |q.velocity.y| ≤ 41 ∧ |q.velocity.z| ≤ 41) ∧
    ∃ ι, |ι - abs i| ≤ 0.0182 ∧ |q.position.z| ≤ |Real.sin ι| * (R * 6378.137)

/-- lunar and solar periodics of the inclination are small -/
theorem incl_near (hL : Libm.Faithful) (h : Elements o ρ) (ht : Within t 43200) : |Spec.incl (rec ρ r0) t.val - abs ρ.xinclo| ≤ 179 / 10 ^ 4 := by
  have hp := (p_pinc (s0 := rec o Satrec.zero) (r0 := r0) hL h ht).mag
  have e1 : Spec.incl (rec ρ r0) t.val = |ρ.xinclo + (periodics { rec ρ r0 with t := t.val } .N).pinc| := by
    have hD : (rec ρ r0).method = .D := rfl
    have e : (perturbed (rec ρ r0) t.val).inclp = ρ.xinclo + (periodics { rec ρ r0 with t := t.val } .N).pinc := by
      rw [(perturbed_ep_incl (rec ρ r0) t.val).2]
      show ρ.xinclo + (_ - (0.0 : ℝ)) = _
      norm_num
    unfold Spec.incl
    rw [if_pos hD, e]
    generalize ρ.xinclo + (periodics { rec ρ r0 with t := t.val } .N).pinc = x
    simp only [real_flt, decide_eq_true_eq]
    split_ifs with hx
    · rw [abs_of_neg (by norm_num at hx; exact hx)]
    · rw [abs_of_nonneg (by norm_num at hx; exact hx)]
  rw [e1]
  refine (abs_abs_sub_abs_le_abs_sub _ _).trans ?_
  rw [add_sub_cancel_left]; exact hp

/-- periodics of the inclination are small -/
theorem inclS_near (hL : Libm.Faithful) (h : Elements o ρ) (ht : Within t 43200) : |inclS (rec ρ r0) t.val - abs ρ.xinclo| ≤ 0.0182 := by
  have hm := p_mid (s0 := rec o Satrec.zero) (r0 := r0) hL h ht
  have h1 := incl_near (r0 := r0) hL h ht
  have e2 : inclS (rec ρ r0) t.val = Spec.incl (rec ρ r0) t.val + (1.5 * Spec.k2 (rec ρ r0) t.val * Real.cos (Spec.incl (rec ρ r0) t.val) *
    Real.sin (Spec.incl (rec ρ r0) t.val) * cos2u (rec ρ r0) t.val) := rfl
  have k := (t_k2 hL hm).mag
  have c := (t_cos2u hL hm).mag
  rw [e2]
  generalize Spec.incl (rec ρ r0) t.val = x at *
  generalize Spec.k2 (rec ρ r0) t.val = K at *
  generalize cos2u (rec ρ r0) t.val = C at *
  have hs : |Real.cos x * Real.sin x| ≤ 1 / 2 := by
    have := Real.sin_sq_add_cos_sq x
    rw [abs_le]; constructor <;> nlinarith [sq_nonneg (Real.cos x + Real.sin x), sq_nonneg (Real.cos x - Real.sin x)]
  have h2 : |1.5 * K * Real.cos x * Real.sin x * C| ≤ 0.00024 := by
    rw [show 1.5 * K * Real.cos x * Real.sin x * C = 1.5 * K * (Real.cos x * Real.sin x) * C by ring, abs_mul, abs_mul, abs_mul]
    calc |(1.5 : ℝ)| * |K| * |Real.cos x * Real.sin x| * |C| ≤ 1.5 * (307 / 10 ^ 6) * (1 / 2) * 1 :=
          mul_le_mul (mul_le_mul (mul_le_mul (by norm_num [abs_of_pos]) k (abs_nonneg _) (by norm_num)) hs (abs_nonneg _) (by norm_num)) c (abs_nonneg _) (by norm_num)
      _ ≤ _ := by norm_num
  rw [show x + 1.5 * K * Real.cos x * Real.sin x * C - |ρ.xinclo| = (x - |ρ.xinclo|) + 1.5 * K * Real.cos x * Real.sin x * C by ring]
  exact (abs_add_le _ _).trans (by norm_num at *; linarith)

omit [Libm] in
theorem between_of {r : Satrec ℝ} {τ : ℝ} {w : Vec3 ℝ} (h1 : 103 / 10 ^ 2 ≤ radius r τ) (h2 : |radius r τ| ≤ 156 / 10 ^ 1)
    (hw : |w.x| ≤ 41 ∧ |w.y| ≤ 41 ∧ |w.z| ≤ 41) {i : ℝ} (hi : |inclS r τ - abs i| ≤ 0.0182) : Between i ⟨position r τ, w⟩ := by
  have eR : (EARTH_RADIUS : ℝ) = 6378.137 := ER_val
  refine ⟨radius r τ, h1, (le_abs_self _).trans h2, ?_, hw, inclS r τ, hi, ?_⟩
  swap
  · have e : (position r τ).z = Real.sin (inclS r τ) * (radius r τ * 6378.137) * Real.sin (argLat r τ) := by
      simp only [position, unitU, real_sin, eR]; ring
    show |(position r τ).z| ≤ _
    rw [e, abs_mul, abs_mul, abs_of_nonneg (mul_nonneg (le_trans (by norm_num) h1) (by norm_num) : 0 ≤ radius r τ * 6378.137)]
    exact mul_le_of_le_one_right (mul_nonneg (abs_nonneg _) (mul_nonneg (le_trans (by norm_num) h1) (by norm_num))) (Real.abs_sin_le_one _)
  have e1 := Real.sin_sq_add_cos_sq (argLat r τ)
  have e2 := Real.sin_sq_add_cos_sq (nodeS r τ)
  have e3 := Real.sin_sq_add_cos_sq (inclS r τ)
  simp only [position, unitU, real_sin, real_cos, eR]
  linear_combination (radius r τ * 6378.137) ^ 2 * ((Real.cos (inclS r τ) ^ 2 * Real.sin (argLat r τ) ^ 2 + Real.cos (argLat r τ) ^ 2) * e2 +
    Real.sin (argLat r τ) ^ 2 * e3 + e1)

/-- propagation of the two records -/
theorem run_close (hL : Libm.Faithful) (h : Elements o ρ) (ht : Within t 43200) :
    ∃ (p : SGP4Result F64) (q : SGP4Result ℝ), resultOf (sgp4 (rec o s0) t) = some (.ok p) ∧ resultOf (sgp4 (rec ρ r0) t.val) = some (.ok q) ∧
      p.position.Close q.position (1 / 10 ^ 3) ∧ p.velocity.Close q.velocity (1 / 10 ^ 6) ∧ Between ρ.xinclo q := by
  have hm := p_mid (s0 := s0) (r0 := r0) hL h ht
  have hr := radius_far (r0 := r0) hL h ht
  have hF : DspaceReturns (rec o s0) t := by
    obtain ⟨a, b, hab⟩ := C09_f64_returns (rec o s0) t (Or.inr ⟨ht.1, ht.2.trans (by norm_num)⟩)
    exact dspaceReturns_of_sgp4 (by rw [hab]; simp)
  have hR : DspaceReturns (rec ρ r0) t.val := by
    obtain ⟨a, b, hab⟩ := C09_sgp4_returns (rec ρ r0) t.val
    exact dspaceReturns_of_sgp4 (by rw [hab]; simp)
  have ep := p_ep (s0 := s0) (r0 := r0) hL h ht
  have ep1 := abs_le.mp ep.err
  have ep2 := (abs_le.mp ep.mag).2
  have ep3 := ep_lo (r0 := r0) hL h ht
  have nb := no_bounds hL h
  have me := p_meanEcc (s0 := s0) (r0 := r0) hL h ht
  have m1 := abs_le.mp me.err
  have m2 := meanEcc_bounds (r0 := r0) hL h ht
  have e0 := h.ecc_lo
  have e1 := h.ecc_hi
  have pl := t_semiLatus hL hm
  have plg := semiLatus_ge hL hm
  refine ⟨⟨position (rec o s0) t, velocity (rec o s0) t⟩, ⟨position (rec ρ r0) t.val, velocity (rec ρ r0) t.val⟩, ?_, ?_, (state_close hL hm).1, (state_close hL hm).2, between_of hr (t_radius hL hm).mag
    ⟨(t_velx hL hm).mag.trans (by norm_num), (t_vely hL hm).mag.trans (by norm_num), (t_velz hL hm).mag.trans (by norm_num)⟩ (inclS_near hL h ht)⟩
  · rw [sgp4_refines (rec o s0) t hF]
    congr 1
    unfold Spec.result
    have c1 : ¬ ((rec o s0).no ≤. (0.0 : F64)) = true := by
      obtain ⟨z1, z2⟩ := sci_int (m := 0) (s := true) (k := 1) 0 (by norm_num) (by norm_num)
      have q := i_no hL h
      show ¬ F64.fle (no o) (F64.sci 0 true 1) = true
      rw [fle_fin q.fin z1, z2, not_le]
      have := (abs_le.mp q.err).1
      push_cast; norm_num at *; linarith
    have c2 : ¬ ((meanEcc (rec o s0) t ≥. (1.0 : F64)) || (meanEcc (rec o s0) t <. (-0.001 : F64))) = true := by
      rw [Bool.or_eq_true, not_or]
      constructor
      · obtain ⟨z1, z2⟩ := sci_int (m := 10) (s := true) (k := 1) 1 (by norm_num) (by norm_num)
        show ¬ F64.fle (F64.sci 10 true 1) (meanEcc (rec o s0) t) = true
        rw [fle_fin z1 me.fin, z2, not_le]
        clear ep ep1 ep2 ep3 hr pl plg
        push_cast; norm_num at *; linarith [m1.2, m2.2]
      · have q := (Q.sci 1 true 3 (1 / 10 ^ 3) (by norm_num)).neg
        show ¬ F64.flt (meanEcc (rec o s0) t) (-(OfScientific.ofScientific 1 true 3 : F64)) = true
        rw [flt_fin me.fin q.fin, not_lt]
        have q2 := (abs_le.mp q.err).2
        clear ep ep1 ep2 ep3 hr pl plg
        norm_num at *; linarith [m1.1, m2.1]
    have c3 : ¬ (((perturbed (rec o s0) t).ep <. (0.0 : F64)) || ((perturbed (rec o s0) t).ep >. (1.0 : F64))) = true := by
      rw [Bool.or_eq_true, not_or]
      constructor
      · refine lit_zero_le ep.fin ?_
        norm_num at * <;> linarith [ep1.1]
      · obtain ⟨z1, z2⟩ := sci_int (m := 10) (s := true) (k := 1) 1 (by norm_num) (by norm_num)
        show ¬ F64.flt (F64.sci 10 true 1) (perturbed (rec o s0) t).ep = true
        rw [flt_fin z1 ep.fin, z2, not_lt]
        push_cast; norm_num at *; linarith [ep1.2]
    have c4 : ¬ (Spec.semiLatus (rec o s0) t <. (0.0 : F64)) = true := by
      refine lit_zero_le pl.fin ?_
      have := (abs_le.mp pl.err).1
      norm_num at * <;> linarith
    have rd := t_radius hL hm
    have c5 : ¬ (radius (rec o s0) t <. (1.0 : F64)) = true := by
      obtain ⟨z1, z2⟩ := sci_int (m := 10) (s := true) (k := 1) 1 (by norm_num) (by norm_num)
      show ¬ F64.flt (radius (rec o s0) t) (F64.sci 10 true 1) = true
      rw [flt_fin rd.fin z1, z2, not_lt]
      have := (abs_le.mp rd.err).1
      push_cast; norm_num at *; linarith
    rw [if_neg c1, if_neg c2, if_neg (fun hc => c3 hc.2), if_neg c4, if_neg c5]
  · rw [sgp4_refines (rec ρ r0) t.val hR]
    congr 1
    unfold Spec.result
    have c1 : ¬ ((rec ρ r0).no ≤. (0.0 : ℝ)) = true := by
      rw [real_fle, decide_eq_true_eq, not_le]
      show (0.0 : ℝ) < no ρ
      norm_num at *; linarith
    have c2 : ¬ ((meanEcc (rec ρ r0) t.val ≥. (1.0 : ℝ)) || (meanEcc (rec ρ r0) t.val <. (-0.001 : ℝ))) = true := by
      rw [Bool.or_eq_true, not_or, real_fle, real_flt, decide_eq_true_eq, decide_eq_true_eq, not_le, not_lt]
      clear ep ep1 ep2 ep3 hr pl plg
      constructor <;> norm_num at * <;> linarith [m2.1, m2.2]
    have c3 : ¬ (((perturbed (rec ρ r0) t.val).ep <. (0.0 : ℝ)) || ((perturbed (rec ρ r0) t.val).ep >. (1.0 : ℝ))) = true := by
      rw [Bool.or_eq_true, not_or, real_flt, real_flt, decide_eq_true_eq, decide_eq_true_eq, not_lt, not_lt]
      constructor <;> norm_num at * <;> linarith
    have c4 : ¬ (Spec.semiLatus (rec ρ r0) t.val <. (0.0 : ℝ)) = true := by
      rw [real_flt, decide_eq_true_eq, not_lt]
      norm_num at *; linarith
    have c5 : ¬ (radius (rec ρ r0) t.val <. (1.0 : ℝ)) = true := by
      rw [real_flt, decide_eq_true_eq, not_lt]
      norm_num at *; linarith
    rw [if_neg c1, if_neg c2, if_neg (fun hc => c3 hc.2), if_neg c4, if_neg c5]

theorem rp_lo (hL : Libm.Faithful) (h : Elements o ρ) : 113 / 10 ^ 2 ≤ rp ρ := by
  have e : rp ρ = ao ρ * ((1.0 : ℝ) - ρ.xecco) := rfl
  have h1 := (ao_bounds0 hL h).1
  have h2 := h.ecc_hi
  have h3 : (59 / 10 ^ 2 : ℝ) ≤ 1.0 - ρ.xecco := by norm_num at *; linarith
  rw [e]; exact le_trans (by norm_num) (mul_le_mul h1 h3 (by norm_num) (le_trans (by norm_num) h1))

theorem branch_real (hL : Libm.Faithful) (h : Elements o ρ) : Branch ρ := by
  have hp := rp_lo hL h
  have hn := no_bounds hL h
  refine ⟨?_, ?_, ?_⟩
  · rw [real_fle, decide_eq_true_eq]
    have := ome_lo h.toRanges
    norm_num at *; linarith
  · rw [real_flt, decide_eq_false_iff_not, not_lt, ER_val]
    norm_num at *; linarith
  · rw [real_fle, decide_eq_true_eq, real_TWO_PI, le_div_iff₀ (no_pos hL h)]
    have := Real.pi_gt_d4
    norm_num at *; linarith

theorem branch_f64 (hL : Libm.Faithful) (h : Elements o ρ) : Branch o := by
  have hp := rp_lo hL h
  have one := (Q.int 10 true 1 1 (by norm_num)).mono (A' := 1) (δ' := 0) (by norm_num) le_rfl
  have qr : Q (rp o) (rp ρ) 20 (1 / 10 ^ 12) := ((i_ao hL h).mul (one.sub (in_ecc h))).mono (by norm_num) (by norm_num)
  obtain ⟨r1, r2⟩ := abs_le.mp qr.err
  refine ⟨?_, ?_, ?_⟩
  · have q := i_ome h
    obtain ⟨z1, z2⟩ := sci_int (m := 0) (s := true) (k := 1) 0 (by norm_num) (by norm_num)
    refine (fle_fin z1 q.fin).mpr ?_
    rw [z2]
    have := ome_lo h.toRanges
    have := (abs_le.mp q.err).1
    push_cast; norm_num at *; linarith
  · have l := Q.int 1560 true 1 156 (by norm_num)
    have g := ((qr.sub one).mul q_ER).mono (A' := 200000) (δ' := 1 / 10 ^ 3) (by norm_num) (by norm_num)
    rw [Bool.eq_false_iff]
    intro hc
    have hc' := (flt_fin g.fin l.fin).mp hc
    have l1 := (abs_le.mp l.err).2
    have g1 := (abs_le.mp g.err).1
    rw [ER_val] at g1
    norm_num at * <;> linarith
  · have hn := no_bounds hL h
    have q := i_no hL h
    have tp : Q (TWO_PI : F64) (2 * Real.pi) 6.3 (1 / 2 ^ 51) := by
      refine ⟨two_pi_val.1, two_pi_err, ?_⟩
      have := Real.pi_lt_d4
      have := Real.pi_pos
      rw [abs_of_pos (by positivity)]; norm_num at *; linarith
    have hd := no_abs hL h
    have g := (tp.div q (249 / 10 ^ 5) 2531 hd (quot_le (m := 249 / 10 ^ 5) tp.mag hd (by norm_num) (by norm_num))).mono (A' := 2531) (δ' := 1 / 10 ^ 8) (by norm_num) (by norm_num)
    have l := Q.int 2250 true 1 225 (by norm_num)
    refine (fle_fin l.fin g.fin).mpr ?_
    have l1 := (abs_le.mp l.err).2
    have g1 := (abs_le.mp g.err).1
    have b : 2255 / 10 ≤ 2 * Real.pi / no ρ := by
      rw [le_div_iff₀ (no_pos hL h)]
      have := Real.pi_gt_d4
      norm_num at *; linarith
    norm_num at * <;> linarith

omit [Libm] in
/-- initialisation succeeds if the propagation at epoch does -/
theorem init_ok {F : Type} [Arith F] {o : SGP4InitOptions F} (s : Satrec F) {p : SGP4Result F}
    (h : resultOf (sgp4 (initRecord s o) 0.0) = some (.ok p)) : ∃ s', sgp4init s o = some (s', .ok p) := by
  unfold sgp4init
  revert h
  generalize sgp4 (initRecord s o) 0.0 = out
  intro h
  rcases out with _ | ⟨s', r⟩
  · cases h
  · cases h; exact ⟨_, rfl⟩

/-- **C93**, from the elements: initialisation and propagation of a deep-space orbit, in doubles and exactly. -/
theorem init_and_run (hL : Libm.Faithful) (h : Elements o ρ) (s0 : Satrec F64) (r0 : Satrec ℝ) (ht : Within t 43200) :
    ∃ (s : Satrec F64) (r : Satrec ℝ) (p0 p : SGP4Result F64) (q0 q : SGP4Result ℝ),
      sgp4init s0 o = some (s, .ok p0) ∧ sgp4init r0 ρ = some (r, .ok q0) ∧ s.method = .D ∧ r.method = .D ∧
      (sgp4 s t).map Prod.snd = some (.ok p) ∧ (sgp4 r t.val).map Prod.snd = some (.ok q) ∧
      p.position.Close q.position (1 / 10 ^ 3) ∧ p.velocity.Close q.velocity (1 / 10 ^ 6) ∧
      p0.position.Close q0.position (1 / 10 ^ 3) ∧ p0.velocity.Close q0.velocity (1 / 10 ^ 6) ∧ Between ρ.xinclo q ∧ r = rec ρ r := by
  have bF := branch_f64 hL h
  have bR := branch_real hL h
  obtain ⟨z1, z2⟩ := sci_int (m := 0) (s := true) (k := 1) 0 (by norm_num) (by norm_num)
  have z3 : (0.0 : F64).val = 0 := z2.trans (by push_cast; rfl)
  obtain ⟨p0, q0, a1, a2, a3, a4, -⟩ := run_close (s0 := initRecord s0 o) (r0 := initRecord r0 ρ) (t := (0.0 : F64)) hL h ⟨z1, by rw [z3]; norm_num⟩
  rw [← fields_eq (fields_init s0 bF)] at a1
  rw [← fields_eq (fields_init r0 bR), z3, show (0 : ℝ) = 0.0 by norm_num] at a2
  obtain ⟨s, hs⟩ := init_ok s0 a1
  obtain ⟨r, hr⟩ := init_ok r0 a2
  have fF := fields_sgp4init hs bF
  have fR := fields_sgp4init hr bR
  obtain ⟨p, q, b1, b2, b3, b4, b5⟩ := run_close (s0 := s) (r0 := r) (t := t) hL h ht
  rw [← fields_eq fF] at b1
  rw [← fields_eq fR] at b2
  exact ⟨s, r, p0, p, q0, q, hs, hr, fF.method, fR.method, b1, b2, b3, b4, a3, a4, b5, fields_eq fR⟩

end
end Sat.Far
