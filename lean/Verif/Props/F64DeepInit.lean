import Verif.Props.DeepChain
import Verif.Props.F64TailFar
import Verif.Props.F64Init
import Verif.F64.AtanWide
/-!
# The deep-space initialisation in doubles against the same initialisation in exact arithmetic

`Far.Elements o ρ`: the doubles handed to `sgp4init` are close to the real numbers `ρ`, which describe an orbit of at least 225 minutes.  The
theorems `i_*` bound the error of every quantity of the record that influences the state (C10).
-/

namespace Sat.Far
open F64 Chain

/-- Elements of ordinary deep-space orbits: between 0.573 and 6.371 revolutions per day, eccentricity at most 0.41, inclination at most 160 degrees,
drag term at most 0.001, epoch within a century of 1950. -/
structure Ranges (ρ : SGP4InitOptions ℝ) : Prop where
  ecc_lo : 0 ≤ ρ.xecco
  ecc_hi : ρ.xecco ≤ 41 / 10 ^ 2
  mot_lo : 25 / 10 ^ 4 ≤ ρ.xno
  mot_hi : ρ.xno ≤ 278 / 10 ^ 4
  incl_hi : |ρ.xinclo| ≤ 28 / 10
  argp_hi : |ρ.xargpo| ≤ 63 / 10
  node_hi : |ρ.xnodeo| ≤ 63 / 10
  anom_hi : |ρ.xmo| ≤ 63 / 10
  bstar_hi : |ρ.xbstar| ≤ 1 / 10 ^ 3
  epoch_hi : |ρ.epoch| ≤ 40000

/-- doubles close to such elements -/
structure Elements (o : SGP4InitOptions F64) (ρ : SGP4InitOptions ℝ) : Prop extends Ranges ρ where
  ecc : Near o.xecco ρ.xecco (23 / 10 ^ 17) (1 / 10 ^ 46)
  bstar : Near o.xbstar ρ.xbstar (23 / 10 ^ 17) (1 / 10 ^ 46)
  mot : Near o.xno ρ.xno (6 / 10 ^ 16) 0
  incl : Near o.xinclo ρ.xinclo 0 (2 / 10 ^ 15)
  argp : Near o.xargpo ρ.xargpo 0 (4 / 10 ^ 15)
  node : Near o.xnodeo ρ.xnodeo 0 (4 / 10 ^ 15)
  anom : Near o.xmo ρ.xmo 0 (4 / 10 ^ 15)
  epoch : Near o.epoch ρ.epoch 0 (94 / 10 ^ 11)

section
variable [Libm] {o : SGP4InitOptions F64} {ρ : SGP4InitOptions ℝ}

section
omit [Libm]
theorem in_eccR (h : Elements o ρ) : QS o.xecco ρ.xecco |ρ.xecco| (41 / 10 ^ 2) (23 / 10 ^ 17) (1 / 10 ^ 46) :=
  h.ecc.qs (by rw [abs_of_nonneg h.ecc_lo]; exact h.ecc_hi) (by norm_num) (by norm_num)
theorem in_ecc (h : Elements o ρ) : Q o.xecco ρ.xecco (41 / 10 ^ 2) (1 / 10 ^ 16) := ((in_eccR h).q (in_eccR h).top).mono le_rfl (by norm_num)
theorem in_bstar (h : Elements o ρ) : Q o.xbstar ρ.xbstar (1 / 10 ^ 3) (3 / 10 ^ 19) := by
  have := h.bstar.qs h.bstar_hi (by norm_num) (by norm_num)
  exact (this.q this.top).mono le_rfl (by norm_num)
theorem mot_pos (h : Ranges ρ) : 0 < ρ.xno := lt_of_lt_of_le (by norm_num) h.mot_lo
theorem in_mot (h : Elements o ρ) : QS o.xno ρ.xno |ρ.xno| (278 / 10 ^ 4) (6 / 10 ^ 16) 0 :=
  h.mot.qs (by rw [abs_of_pos (mot_pos h.toRanges)]; exact h.mot_hi) (by norm_num) le_rfl
theorem in_incl (h : Elements o ρ) : Q o.xinclo ρ.xinclo (28 / 10) (2 / 10 ^ 15) := h.incl.q h.incl_hi
theorem in_argp (h : Elements o ρ) : Q o.xargpo ρ.xargpo (63 / 10) (4 / 10 ^ 15) := h.argp.q h.argp_hi
theorem in_node (h : Elements o ρ) : Q o.xnodeo ρ.xnodeo (63 / 10) (4 / 10 ^ 15) := h.node.q h.node_hi
theorem in_anom (h : Elements o ρ) : Q o.xmo ρ.xmo (63 / 10) (4 / 10 ^ 15) := h.anom.q h.anom_hi
theorem in_epoch (h : Elements o ρ) : Q o.epoch ρ.epoch 40000 (94 / 10 ^ 11) := h.epoch.q h.epoch_hi

/-! ## Sizes, in exact arithmetic -/
theorem ecc_sq_le (h : Ranges ρ) : 0 ≤ ρ.xecco * ρ.xecco ∧ ρ.xecco * ρ.xecco ≤ 1681 / 10 ^ 4 := by
  refine ⟨mul_self_nonneg _, ?_⟩
  have := mul_le_mul h.ecc_hi h.ecc_hi h.ecc_lo (by norm_num)
  norm_num at *; linarith
theorem ome_lo (h : Ranges ρ) : 831 / 10 ^ 3 ≤ ome ρ := by rw [ome_eq]; have := ecc_sq_le h; norm_num at *; linarith
theorem ome_hi (h : Ranges ρ) : ome ρ ≤ 1 := by rw [ome_eq]; have := ecc_sq_le h; linarith
theorem rt_lo (h : Ranges ρ) : 911 / 10 ^ 3 ≤ rt ρ := by
  show _ ≤ Real.sqrt (ome ρ)
  exact Real.le_sqrt_of_sq_le (le_trans (by norm_num) (ome_lo h))
theorem rt_hi (h : Ranges ρ) : rt ρ ≤ 1 := by
  show Real.sqrt (ome ρ) ≤ _
  exact (Real.sqrt_le_sqrt (ome_hi h)).trans (by rw [Real.sqrt_one])
theorem den1_ge (h : Ranges ρ) : 75 / 10 ^ 2 ≤ |rt ρ * ome ρ| := by
  refine le_trans ?_ (le_abs_self _)
  exact le_trans (by norm_num) (mul_le_mul (rt_lo h) (ome_lo h) (by norm_num) (le_trans (by norm_num) (rt_lo h)))
theorem mot_den (h : Ranges ρ) : 25 / 10 ^ 4 ≤ |ρ.xno| := h.mot_lo.trans (le_abs_self _)
theorem ratio0_lo (h : Ranges ρ) : 2675 / 10 ^ 3 ≤ (XKE : ℝ) / ρ.xno := by
  rw [le_div_iff₀ (mot_pos h), XKE_val]; have := h.mot_hi; norm_num at *; linarith
theorem ratio0_hi (h : Ranges ρ) : (XKE : ℝ) / ρ.xno ≤ 2975 / 10 ^ 2 := by
  rw [div_le_iff₀ (mot_pos h), XKE_val]; have := h.mot_lo; norm_num at *; linarith
theorem ak_bounds (h : Ranges ρ) : 192 / 10 ^ 2 ≤ ak ρ ∧ ak ρ ≤ 961 / 10 ^ 2 :=
  pow23_bounds (by norm_num) (ratio0_lo h) (ratio0_hi h) (by norm_num) (by norm_num) (by norm_num) (by norm_num)
theorem ak_sq (h : Ranges ρ) : 368 / 10 ^ 2 ≤ |ak ρ * ak ρ| := by
  refine le_trans ?_ (le_abs_self _)
  have := (ak_bounds h).1
  exact le_trans (by norm_num) (mul_le_mul this this (by norm_num) (le_trans (by norm_num) this))
end
theorem i_ome (h : Elements o ρ) : Q (ome o) (ome ρ) (1) (213 / 10 ^ 18) := by
  have g1 := (Q.int 10 true 1 1 (by norm_num)).mono (A' := 1) (δ' := 0) (by norm_num) le_rfl
  have g2 := ((in_ecc h).mul (in_ecc h)).mono (A' := 169 / 10 ^ 3) (δ' := 101 / 10 ^ 18) (by norm_num) (by norm_num)
  have g3 := (g1.sub' g2 (1) (by show |ome ρ| ≤ _; rw [abs_of_nonneg (le_trans (by norm_num) (ome_lo h.toRanges))]; exact ome_hi h.toRanges)).mono (A' := 1) (δ' := 213 / 10 ^ 18) (by norm_num) (by norm_num)
  exact g3

theorem i_rt (h : Elements o ρ) : Q (rt o) (rt ρ) (1) (345 / 10 ^ 18) := by
  have g1 := ((i_ome h).sqrt (911 / 10 ^ 3) (1) (le_trans (by norm_num) (ome_lo h.toRanges)) (by norm_num)).mono (A' := 1) (δ' := 345 / 10 ^ 18) (by norm_num) (by norm_num)
  exact g1

theorem i_ci (hL : Libm.Faithful) (h : Elements o ρ) : Q (ci o) (ci ρ) (1) (556 / 10 ^ 17) := by
  have g1 := ((in_incl h).angle).mono (A' := 281 / 10 ^ 2) (δ' := 2 / 10 ^ 15) (by norm_num) (by norm_num)
  have g2 := (g1.cos hL).mono (A' := 1) (δ' := 556 / 10 ^ 17) (by norm_num) (by norm_num)
  exact g2

theorem i_si (hL : Libm.Faithful) (h : Elements o ρ) : Q (si o) (si ρ) (1) (556 / 10 ^ 17) := by
  have g1 := ((in_incl h).angle).mono (A' := 281 / 10 ^ 2) (δ' := 2 / 10 ^ 15) (by norm_num) (by norm_num)
  have g2 := (g1.sin hL).mono (A' := 1) (δ' := 556 / 10 ^ 17) (by norm_num) (by norm_num)
  exact g2

theorem i_ci2 (hL : Libm.Faithful) (h : Elements o ρ) : Q (ci2 o) (ci2 ρ) (1) (113 / 10 ^ 16) := by
  have g1 := ((i_ci hL h).mul (i_ci hL h)).mono (A' := 1) (δ' := 113 / 10 ^ 16) (by norm_num) (by norm_num)
  exact g1

theorem i_d1 (hL : Libm.Faithful) (h : Elements o ρ) : Q (d1 o) (d1 ρ) (22 / 10 ^ 4) (408 / 10 ^ 19) := by
  have g1 := (Q.int 30 true 1 3 (by norm_num)).mono (A' := 3) (δ' := 0) (by norm_num) le_rfl
  have g2 := (Q.int 10 true 1 1 (by norm_num)).mono (A' := 1) (δ' := 0) (by norm_num) le_rfl
  have g3 := Q.dyadic 75 true 2 3 2 (75 / 10 ^ 2) (by norm_num) (by norm_num)
  have g4 := (g3.mul q_J2).mono (A' := 818 / 10 ^ 6) (δ' := 183 / 10 ^ 21) (by norm_num) (by norm_num)
  have g5 := (g1.mul (i_ci2 hL h)).mono (A' := 3) (δ' := 343 / 10 ^ 16) (by norm_num) (by norm_num)
  have g6 := (g5.sub' g2 (2) three_le).mono (A' := 2) (δ' := 346 / 10 ^ 16) (by norm_num) (by norm_num)
  have g7 := (g4.mul g6).mono (A' := 164 / 10 ^ 5) (δ' := 289 / 10 ^ 19) (by norm_num) (by norm_num)
  have g8 := ((i_rt h).mul (i_ome h)).mono (A' := 1) (δ' := 67 / 10 ^ 17) (by norm_num) (by norm_num)
  have g9 := (g7.div g8 (75 / 10 ^ 2) (22 / 10 ^ 4) (den1_ge h.toRanges) (quot_le (m := 75 / 10 ^ 2) g7.mag (den1_ge h.toRanges) (by norm_num) (by norm_num))).mono (A' := 22 / 10 ^ 4) (δ' := 408 / 10 ^ 19) (by norm_num) (by norm_num)
  exact g9

theorem i_ak (hL : Libm.Faithful) (h : Elements o ρ) : Q (ak o) (ak ρ) (961 / 10 ^ 2) (104 / 10 ^ 14) := by
  have g1 := ((in_mot h).q (in_mot h).top).mono (A' := 278 / 10 ^ 4) (δ' := 167 / 10 ^ 19) (by norm_num) (by norm_num)
  have g2 := (q_XKE.div g1 (25 / 10 ^ 4) (298 / 10 ^ 1) (mot_den h.toRanges) (quot_le (m := 25 / 10 ^ 4) q_XKE.mag (mot_den h.toRanges) (by norm_num) (by norm_num))).mono (A' := 298 / 10 ^ 1) (δ' := 206 / 10 ^ 15) (by norm_num) (by norm_num)
  have g3 := (Q.powf hL g2 q_x2o3 5 (2675 / 10 ^ 3) (961 / 10 ^ 2) (52 / 10 ^ 15) (192 / 10 ^ 2) (ratio0_lo h.toRanges) (ak_bounds h.toRanges).2 (ak_bounds h.toRanges).1 (by norm_num) (by norm_num) (by norm_num) (by norm_num) (by norm_num) (by norm_num) (by norm_num)).mono (A' := 961 / 10 ^ 2) (δ' := 104 / 10 ^ 14) (by norm_num) (by norm_num)
  exact g3

theorem i_del (hL : Libm.Faithful) (h : Elements o ρ) : Q (del o) (del ρ) (6 / 10 ^ 4) (328 / 10 ^ 17) := by
  have g1 := ((i_ak hL h).mul (i_ak hL h)).mono (A' := 924 / 10 ^ 1) (δ' := 2 / 10 ^ 11) (by norm_num) (by norm_num)
  have g2 := ((i_d1 hL h).div g1 (368 / 10 ^ 2) (6 / 10 ^ 4) (ak_sq h.toRanges) (quot_le (m := 368 / 10 ^ 2) (i_d1 hL h).mag (ak_sq h.toRanges) (by norm_num) (by norm_num))).mono (A' := 6 / 10 ^ 4) (δ' := 328 / 10 ^ 17) (by norm_num) (by norm_num)
  exact g2

theorem i_adel (hL : Libm.Faithful) (h : Elements o ρ) : Q (adel o) (adel ρ) (981 / 10 ^ 2) (108 / 10 ^ 14) := by
  have g1 := (Q.int 10 true 1 1 (by norm_num)).mono (A' := 1) (δ' := 0) (by norm_num) le_rfl
  have g2 := (Q.int 30 true 1 3 (by norm_num)).mono (A' := 3) (δ' := 0) (by norm_num) le_rfl
  have g3 := (g1.div g2 (3) (34 / 10 ^ 2) (by norm_num [abs_of_pos]) (quot_le (m := 3) g1.mag (by norm_num [abs_of_pos]) (by norm_num) (by norm_num))).mono (A' := 34 / 10 ^ 2) (δ' := 378 / 10 ^ 19) (by norm_num) (by norm_num)
  have g4 := (Q.int 1340 true 1 134 (by norm_num)).mono (A' := 134) (δ' := 0) (by norm_num) le_rfl
  have g5 := (Q.int 810 true 1 81 (by norm_num)).mono (A' := 81) (δ' := 0) (by norm_num) le_rfl
  have g6 := (g4.mul (i_del hL h)).mono (A' := 804 / 10 ^ 4) (δ' := 44 / 10 ^ 14) (by norm_num) (by norm_num)
  have g7 := (g6.mul (i_del hL h)).mono (A' := 483 / 10 ^ 7) (δ' := 528 / 10 ^ 18) (by norm_num) (by norm_num)
  have g8 := (g7.div g5 (81) (1 / 10 ^ 4) (by norm_num [abs_of_pos]) (quot_le (m := 81) g7.mag (by norm_num [abs_of_pos]) (by norm_num) (by norm_num))).mono (A' := 1 / 10 ^ 4) (δ' := 653 / 10 ^ 20) (by norm_num) (by norm_num)
  have g9 := ((i_del hL h).mul (i_del hL h)).mono (A' := 36 / 10 ^ 8) (δ' := 394 / 10 ^ 20) (by norm_num) (by norm_num)
  have g10 := (g1.sub g9).mono (A' := 101 / 10 ^ 2) (δ' := 115 / 10 ^ 18) (by norm_num) (by norm_num)
  have g11 := (g3.add g8).mono (A' := 341 / 10 ^ 3) (δ' := 821 / 10 ^ 19) (by norm_num) (by norm_num)
  have g12 := ((i_del hL h).mul g11).mono (A' := 205 / 10 ^ 6) (δ' := 112 / 10 ^ 17) (by norm_num) (by norm_num)
  have g13 := (g10.sub g12).mono (A' := 102 / 10 ^ 2) (δ' := 135 / 10 ^ 17) (by norm_num) (by norm_num)
  have g14 := ((i_ak hL h).mul g13).mono (A' := 981 / 10 ^ 2) (δ' := 108 / 10 ^ 14) (by norm_num) (by norm_num)
  exact g14

theorem adel_lo (hL : Libm.Faithful) (h : Elements o ρ) : 191 / 10 ^ 2 ≤ adel ρ := by
  have h1 := (i_del hL h).mag
  have h2 := (ak_bounds h.toRanges).1
  obtain ⟨a1, a2⟩ := abs_le.mp h1
  have e : adel ρ = ak ρ * (1 - del ρ * del ρ - del ρ * (1 / 3 + 134 * (del ρ * del ρ) / 81)) := by
    show ak ρ * (1.0 - del ρ * del ρ - del ρ * ((1.0 : ℝ) / 3.0 + 134.0 * del ρ * del ρ / 81.0)) = _
    norm_num; ring_nf; try norm_num
  have s1 : del ρ * del ρ ≤ 1 / 10 ^ 5 := by
    rw [← abs_mul_abs_self]
    exact (mul_le_mul h1 h1 (abs_nonneg _) (by norm_num)).trans (by norm_num)
  have s0 : 0 ≤ del ρ * del ρ := mul_self_nonneg _
  have s2 : del ρ * (1 / 3 + 134 * (del ρ * del ρ) / 81) ≤ 1 / 10 ^ 3 := by
    have b0 : 0 ≤ 1 / 3 + 134 * (del ρ * del ρ) / 81 := by positivity
    have b1 : 1 / 3 + 134 * (del ρ * del ρ) / 81 ≤ 34 / 10 ^ 2 := by norm_num at *; linarith
    exact (mul_le_mul a2 b1 b0 (by norm_num)).trans (by norm_num)
  rw [e]
  refine le_trans ?_ (mul_le_mul h2 (show 9985 / 10 ^ 4 ≤ 1 - del ρ * del ρ - del ρ * (1 / 3 + 134 * (del ρ * del ρ) / 81) by norm_num at *; linarith)
    (by norm_num) (le_trans (by norm_num) h2))
  norm_num
theorem adel_sq (hL : Libm.Faithful) (h : Elements o ρ) : 364 / 10 ^ 2 ≤ |adel ρ * adel ρ| := by
  refine le_trans ?_ (le_abs_self _)
  have := adel_lo hL h
  exact le_trans (by norm_num) (mul_le_mul this this (by norm_num) (le_trans (by norm_num) this))

theorem i_del2 (hL : Libm.Faithful) (h : Elements o ρ) : Q (del2 o) (del2 ρ) (7 / 10 ^ 4) (411 / 10 ^ 17) := by
  have g1 := ((i_adel hL h).mul (i_adel hL h)).mono (A' := 963 / 10 ^ 1) (δ' := 213 / 10 ^ 13) (by norm_num) (by norm_num)
  have g2 := ((i_d1 hL h).div g1 (364 / 10 ^ 2) (7 / 10 ^ 4) (adel_sq hL h) (quot_le (m := 364 / 10 ^ 2) (i_d1 hL h).mag (adel_sq hL h) (by norm_num) (by norm_num))).mono (A' := 7 / 10 ^ 4) (δ' := 411 / 10 ^ 17) (by norm_num) (by norm_num)
  exact g2

theorem kozai_bounds (hL : Libm.Faithful) (h : Elements o ρ) : 9993 / 10 ^ 4 ≤ (1.0 : ℝ) + del2 ρ ∧ (1.0 : ℝ) + del2 ρ ≤ 10007 / 10 ^ 4 := by
  obtain ⟨a1, a2⟩ := abs_le.mp (i_del2 hL h).mag
  constructor <;> norm_num at * <;> linarith
theorem no_bounds (hL : Libm.Faithful) (h : Elements o ρ) : 249 / 10 ^ 5 ≤ no ρ ∧ no ρ ≤ 2783 / 10 ^ 5 := by
  obtain ⟨a1, a2⟩ := kozai_bounds hL h
  have p : (0 : ℝ) < 1.0 + del2 ρ := lt_of_lt_of_le (by norm_num) a1
  have h1 := h.mot_lo
  have h2 := h.mot_hi
  show _ ≤ ρ.xno / (1.0 + del2 ρ) ∧ ρ.xno / (1.0 + del2 ρ) ≤ _
  rw [le_div_iff₀ p, div_le_iff₀ p]
  constructor <;> norm_num at * <;> linarith
theorem no_pos (hL : Libm.Faithful) (h : Elements o ρ) : 0 < no ρ := lt_of_lt_of_le (by norm_num) (no_bounds hL h).1
theorem ratio_bounds (hL : Libm.Faithful) (h : Elements o ρ) : 2672 / 10 ^ 3 ≤ (XKE : ℝ) / no ρ ∧ (XKE : ℝ) / no ρ ≤ 2987 / 10 ^ 2 := by
  obtain ⟨a1, a2⟩ := no_bounds hL h
  rw [le_div_iff₀ (no_pos hL h), div_le_iff₀ (no_pos hL h), XKE_val]
  constructor <;> norm_num at * <;> linarith
theorem ao_bounds0 (hL : Libm.Faithful) (h : Elements o ρ) : 192 / 10 ^ 2 ≤ ao ρ ∧ ao ρ ≤ 963 / 10 ^ 2 :=
  pow23_bounds (by norm_num) (ratio_bounds hL h).1 (ratio_bounds hL h).2 (by norm_num) (by norm_num) (by norm_num) (by norm_num)

theorem i_noR (hL : Libm.Faithful) (h : Elements o ρ) : QS (no o) (no ρ) (|no ρ|) (2783 / 10 ^ 5) (497 / 10 ^ 17) (0) := by
  have g1 := (Q.int 10 true 1 1 (by norm_num)).mono (A' := 1) (δ' := 0) (by norm_num) le_rfl
  have g2 := (g1.add' (i_del2 hL h) (10007 / 10 ^ 4) (by rw [abs_of_pos (lt_of_lt_of_le (by norm_num) (kozai_bounds hL h).1)]; exact (kozai_bounds hL h).2)).mono (A' := 101 / 10 ^ 2) (δ' := 423 / 10 ^ 17) (by norm_num) (by norm_num)
  have g3 := (g2.qs (σ := _) (m := 9993 / 10 ^ 4) le_rfl g2.mag ((kozai_bounds hL h).1.trans (le_abs_self _))).mono (M₁ := 101 / 10 ^ 2) (ε₁ := 424 / 10 ^ 17) (η₁ := 0) (by norm_num) (by norm_num) (by norm_num)
  have g4 := ((in_mot h).rdiv g3 (9993 / 10 ^ 4) ((kozai_bounds hL h).1.trans (le_abs_self _))).mono (M₁ := 279 / 10 ^ 4) (ε₁ := 496 / 10 ^ 17) (η₁ := 876 / 10 ^ 49) (by norm_num) (by norm_num) (by norm_num)
  have g5 := (g4.absorb (249 / 10 ^ 5) ((no_bounds hL h).1.trans (le_abs_self _))).mono (M₁ := 279 / 10 ^ 4) (ε₁ := 497 / 10 ^ 17) (η₁ := 0) (by norm_num) (by norm_num) (by norm_num)
  have g6 := g5.cap (M' := 2783 / 10 ^ 5) (by show |no ρ| ≤ _; rw [abs_of_pos (no_pos hL h)]; exact (no_bounds hL h).2)
  exact g6

theorem i_aoR (hL : Libm.Faithful) (h : Elements o ρ) : QS (ao o) (ao ρ) (|ao ρ|) (963 / 10 ^ 2) (751 / 10 ^ 17) (0) := by
  have g1 := (q_XKE.qs (σ := _) (m := 743 / 10 ^ 4) le_rfl q_XKE.mag XKE_ge).mono (M₁ := 744 / 10 ^ 4) (ε₁ := 112 / 10 ^ 18) (η₁ := 0) (by norm_num) (by norm_num) (by norm_num)
  have g2 := (g1.rdiv (i_noR hL h) (249 / 10 ^ 5) ((no_bounds hL h).1.trans (le_abs_self _))).mono (M₁ := 299 / 10 ^ 1) (ε₁ := 52 / 10 ^ 16) (η₁ := 876 / 10 ^ 49) (by norm_num) (by norm_num) (by norm_num)
  have g3 := (g2.absorb (2672 / 10 ^ 3) ((ratio_bounds hL h).1.trans (le_abs_self _))).mono (M₁ := 299 / 10 ^ 1) (ε₁ := 521 / 10 ^ 17) (η₁ := 0) (by norm_num) (by norm_num) (by norm_num)
  have g4 := (QS.powf hL g3 q_x2o3 6 (963 / 10 ^ 2) (395 / 10 ^ 17) (192 / 10 ^ 2) (lt_of_lt_of_le (by norm_num) (ratio_bounds hL h).1) (ao_bounds0 hL h).2 (ao_bounds0 hL h).1 (by norm_num) (by have := (ratio_bounds hL h).1; norm_num at *; linarith) (by have := (ratio_bounds hL h).2; norm_num at *; linarith) (by norm_num) (by norm_num) (by norm_num) (by norm_num)).mono (M₁ := 963 / 10 ^ 2) (ε₁ := 751 / 10 ^ 17) (η₁ := 0) (by norm_num) (by norm_num) (by norm_num)
  exact g4

theorem i_no (hL : Libm.Faithful) (h : Elements o ρ) : Q (no o) (no ρ) (279 / 10 ^ 4) (139 / 10 ^ 18) := by
  have g1 := ((i_noR hL h).q (i_noR hL h).top).mono (A' := 279 / 10 ^ 4) (δ' := 139 / 10 ^ 18) (by norm_num) (by norm_num)
  exact g1

theorem i_ao (hL : Libm.Faithful) (h : Elements o ρ) : Q (ao o) (ao ρ) (963 / 10 ^ 2) (724 / 10 ^ 16) := by
  have g1 := ((i_aoR hL h).q (i_aoR hL h).top).mono (A' := 963 / 10 ^ 2) (δ' := 724 / 10 ^ 16) (by norm_num) (by norm_num)
  exact g1

theorem y_bounds (hL : Libm.Faithful) (h : Elements o ρ) : 9 / 10 ^ 1 ≤ ao ρ - ss ∧ ao ρ - ss ≤ 862 / 10 ^ 2 := by
  have h1 := (ao_bounds0 hL h).1
  have h2 := (ao_bounds0 hL h).2
  rw [ss_val]
  constructor <;> norm_num at * <;> linarith
theorem y_pos (hL : Libm.Faithful) (h : Elements o ρ) : 0 < ao ρ - ss := lt_of_lt_of_le (by norm_num) (y_bounds hL h).1
theorem tsi_pos (hL : Libm.Faithful) (h : Elements o ρ) : 0 < tsi ρ := by rw [tsi_eq]; exact one_div_pos.mpr (y_pos hL h)
theorem tsi_hi (hL : Libm.Faithful) (h : Elements o ρ) : tsi ρ ≤ 1112 / 10 ^ 3 := by
  rw [tsi_eq, div_le_iff₀ (y_pos hL h)]
  have := (y_bounds hL h).1
  norm_num at *; linarith
/-- `a / (a - s)` -/
theorem sens_bounds (hL : Libm.Faithful) (h : Elements o ρ) : 1 ≤ ao ρ * tsi ρ ∧ ao ρ * tsi ρ ≤ 213 / 10 ^ 2 := by
  have e : ao ρ * tsi ρ = 1 + ss * tsi ρ := by
    rw [tsi_eq]; have := (y_pos hL h).ne'; field_simp; ring
  have t0 := tsi_pos hL h
  have t1 := tsi_hi hL h
  rw [e, ss_val]
  constructor
  · have : 0 ≤ (1 + 78 / 6378.137) * tsi ρ := by positivity
    linarith
  · norm_num at *; linarith
theorem eta_bounds (hL : Libm.Faithful) (h : Elements o ρ) : 0 ≤ eta ρ ∧ eta ρ ≤ 213 / 10 ^ 2 * ρ.xecco := by
  have e : eta ρ = ao ρ * tsi ρ * ρ.xecco := by show ao ρ * ρ.xecco * tsi ρ = _; ring
  obtain ⟨s0, s1⟩ := sens_bounds hL h
  rw [e]
  exact ⟨mul_nonneg (le_trans zero_le_one s0) h.ecc_lo, mul_le_mul_of_nonneg_right s1 h.ecc_lo⟩
theorem eta_hi (hL : Libm.Faithful) (h : Elements o ρ) : |eta ρ| ≤ 88 / 10 ^ 2 := by
  obtain ⟨s0, s1⟩ := eta_bounds hL h
  rw [abs_of_nonneg s0]
  have := h.ecc_hi
  norm_num at *; linarith
theorem etasq_bounds (hL : Libm.Faithful) (h : Elements o ρ) : 0 ≤ etasq ρ ∧ etasq ρ ≤ 775 / 10 ^ 3 := by
  have e : etasq ρ = |eta ρ| * |eta ρ| := (abs_mul_abs_self _).symm
  have h1 := eta_hi hL h
  rw [e]
  exact ⟨mul_self_nonneg _, (mul_le_mul h1 h1 (abs_nonneg _) (by norm_num)).trans (by norm_num)⟩
theorem psi_eq (hL : Libm.Faithful) (h : Elements o ρ) : psi ρ = 1 - etasq ρ := by
  have := etasq_bounds hL h
  show |(1.0 : ℝ) - etasq ρ| = _
  rw [abs_of_nonneg (by norm_num at *; linarith)]; norm_num
theorem psi_lo (hL : Libm.Faithful) (h : Elements o ρ) : 22 / 10 ^ 2 ≤ psi ρ := by
  rw [psi_eq hL h]; have := (etasq_bounds hL h).2; norm_num at *; linarith
theorem psi_pos (hL : Libm.Faithful) (h : Elements o ρ) : 0 < psi ρ := lt_of_lt_of_le (by norm_num) (psi_lo hL h)
theorem psi_le (hL : Libm.Faithful) (h : Elements o ρ) : psi ρ ≤ 1 := by
  rw [psi_eq hL h]; have := (etasq_bounds hL h).1; linarith

theorem i_tsi (hL : Libm.Faithful) (h : Elements o ρ) : Q (tsi o) (tsi ρ) (112 / 10 ^ 2) (91 / 10 ^ 15) := by
  have g1 := (Q.int 10 true 1 1 (by norm_num)).mono (A' := 1) (δ' := 0) (by norm_num) le_rfl
  have g2 := ((i_ao hL h).sub' i_ss (862 / 10 ^ 2) (by rw [abs_of_pos (y_pos hL h)]; exact (y_bounds hL h).2)).mono (A' := 862 / 10 ^ 2) (δ' := 735 / 10 ^ 16) (by norm_num) (by norm_num)
  have g3 := (g1.div g2 (9 / 10 ^ 1) (1112 / 10 ^ 3) ((y_bounds hL h).1.trans (le_abs_self _)) (quot_le (m := 9 / 10 ^ 1) g1.mag ((y_bounds hL h).1.trans (le_abs_self _)) (by norm_num) (by norm_num))).mono (A' := 112 / 10 ^ 2) (δ' := 91 / 10 ^ 15) (by norm_num) (by norm_num)
  exact g3

theorem i_eta (hL : Libm.Faithful) (h : Elements o ρ) : Q (eta o) (eta ρ) (88 / 10 ^ 2) (395 / 10 ^ 15) := by
  have g1 := ((i_ao hL h).mul (in_ecc h)).mono (A' := 395 / 10 ^ 2) (δ' := 311 / 10 ^ 16) (by norm_num) (by norm_num)
  have g2 := (g1.mul (i_tsi hL h)).mono (A' := 443 / 10 ^ 2) (δ' := 395 / 10 ^ 15) (by norm_num) (by norm_num)
  have g3 := g2.bound (A' := 88 / 10 ^ 2) (eta_hi hL h)
  exact g3

theorem i_etasq (hL : Libm.Faithful) (h : Elements o ρ) : Q (etasq o) (etasq ρ) (775 / 10 ^ 3) (696 / 10 ^ 15) := by
  have g1 := ((i_eta hL h).mul (i_eta hL h)).mono (A' := 775 / 10 ^ 3) (δ' := 696 / 10 ^ 15) (by norm_num) (by norm_num)
  exact g1

theorem i_eeta (hL : Libm.Faithful) (h : Elements o ρ) : Q (eeta o) (eeta ρ) (361 / 10 ^ 3) (163 / 10 ^ 15) := by
  have g1 := ((in_ecc h).mul (i_eta hL h)).mono (A' := 361 / 10 ^ 3) (δ' := 163 / 10 ^ 15) (by norm_num) (by norm_num)
  exact g1

theorem i_psi (hL : Libm.Faithful) (h : Elements o ρ) : Q (psi o) (psi ρ) (1) (697 / 10 ^ 15) := by
  have g1 := (Q.int 10 true 1 1 (by norm_num)).mono (A' := 1) (δ' := 0) (by norm_num) le_rfl
  have g2 := (g1.sub' (i_etasq hL h) (1) (by have := etasq_bounds hL h; rw [abs_le]; constructor <;> norm_num at * <;> linarith)).mono (A' := 1) (δ' := 697 / 10 ^ 15) (by norm_num) (by norm_num)
  have g3 := (g2.abs).mono (A' := 1) (δ' := 697 / 10 ^ 15) (by norm_num) (by norm_num)
  exact g3

theorem i_coef (hL : Libm.Faithful) (h : Elements o ρ) : Q (coef o) (coef ρ) (303 / 10 ^ 11) (984 / 10 ^ 24) := by
  have g1 := ((i_tsi hL h).mul (i_tsi hL h)).mono (A' := 126 / 10 ^ 2) (δ' := 204 / 10 ^ 15) (by norm_num) (by norm_num)
  have g2 := (i_qz.q i_qz.top).mono (A' := 19 / 10 ^ 10) (δ' := 32 / 10 ^ 25) (by norm_num) (by norm_num)
  have g3 := (g1.mul g1).mono (A' := 159 / 10 ^ 2) (δ' := 515 / 10 ^ 15) (by norm_num) (by norm_num)
  have g4 := (g2.mul g3).mono (A' := 303 / 10 ^ 11) (δ' := 984 / 10 ^ 24) (by norm_num) (by norm_num)
  exact g4

theorem psi35 (hL : Libm.Faithful) (h : Elements o ρ) : 23 / 10 ^ 4 ≤ psi ρ ^ (3.5 : ℝ) ∧ psi ρ ^ (3.5 : ℝ) ≤ 1 := by
  have p := psi_pos hL h
  have p1 := psi_le hL h
  constructor
  · have h1 : psi ρ ^ (4 : ℝ) ≤ psi ρ ^ (3.5 : ℝ) := Real.rpow_le_rpow_of_exponent_ge p p1 (by norm_num)
    refine le_trans ?_ h1
    have h2 : psi ρ ^ (4 : ℝ) = psi ρ ^ 4 := by exact_mod_cast Real.rpow_natCast (psi ρ) 4
    rw [h2]
    exact le_trans (by norm_num) (pow_le_pow_left₀ (by norm_num) (psi_lo hL h) 4)
  · exact Real.rpow_le_one p.le p1 (by norm_num)

theorem i_coef1 (hL : Libm.Faithful) (h : Elements o ρ) : Q (coef1 o) (coef1 ρ) (132 / 10 ^ 8) (154 / 10 ^ 19) := by
  have g1 := Q.dyadic 35 true 1 7 1 (35 / 10 ^ 1) (by norm_num) (by norm_num)
  have g2 := ((i_psi hL h).qs (σ := _) (m := 22 / 10 ^ 2) le_rfl (i_psi hL h).mag ((psi_lo hL h).trans (le_abs_self _))).mono (M₁ := 1) (ε₁ := 317 / 10 ^ 14) (η₁ := 0) (by norm_num) (by norm_num) (by norm_num)
  have g3 := (QS.powf hL g2 g1 4 1 (111 / 10 ^ 13) (23 / 10 ^ 4) (psi_pos hL h) (psi35 hL h).2 (psi35 hL h).1 (by norm_num) (by have := psi_lo hL h; norm_num at *; linarith) (by have := psi_le hL h; norm_num at *; linarith) (by norm_num) (by norm_num) (by norm_num) (by norm_num)).mono (M₁ := 1) (ε₁ := 112 / 10 ^ 13) (η₁ := 0) (by norm_num) (by norm_num) (by norm_num)
  have g4 := ((i_coef hL h).qs (σ := 303 / 10 ^ 11) (M := 303 / 10 ^ 11) (m := 303 / 10 ^ 11) (i_coef hL h).mag le_rfl le_rfl).mono (M₁ := 303 / 10 ^ 11) (ε₁ := 325 / 10 ^ 15) (η₁ := 0) (by norm_num) (by norm_num) (by norm_num)
  have g5 := (g4.div g3 (23 / 10 ^ 4) ((psi35 hL h).1.trans (le_abs_self _))).mono (M₁ := 132 / 10 ^ 8) (ε₁ := 116 / 10 ^ 13) (η₁ := 876 / 10 ^ 49) (by norm_num) (by norm_num) (by norm_num)
  have g6 := (g5.q g5.top).mono (A' := 132 / 10 ^ 8) (δ' := 154 / 10 ^ 19) (by norm_num) (by norm_num)
  exact g6

theorem i_con42 (hL : Libm.Faithful) (h : Elements o ρ) : Q (con42 o) (con42 ρ) (4) (576 / 10 ^ 16) := by
  have g1 := (Q.int 10 true 1 1 (by norm_num)).mono (A' := 1) (δ' := 0) (by norm_num) le_rfl
  have g2 := (Q.int 50 true 1 5 (by norm_num)).mono (A' := 5) (δ' := 0) (by norm_num) le_rfl
  have g3 := (g2.mul (i_ci2 hL h)).mono (A' := 5) (δ' := 571 / 10 ^ 16) (by norm_num) (by norm_num)
  have g4 := (g1.sub' g3 (4) (by have := ci2_bounds (ρ := ρ); rw [abs_le]; constructor <;> norm_num at * <;> linarith)).mono (A' := 4) (δ' := 576 / 10 ^ 16) (by norm_num) (by norm_num)
  exact g4

theorem i_con41 (hL : Libm.Faithful) (h : Elements o ρ) : Q (con41 o) (con41 ρ) (2) (809 / 10 ^ 16) := by
  have g1 := ((i_con42 hL h).neg).mono (A' := 4) (δ' := 576 / 10 ^ 16) (by norm_num) (by norm_num)
  have g2 := (g1.sub' (i_ci2 hL h) (3) (by have := ci2_bounds (ρ := ρ); rw [con42_eq, abs_le]; constructor <;> linarith)).mono (A' := 3) (δ' := 693 / 10 ^ 16) (by norm_num) (by norm_num)
  have g3 := (g2.sub' (i_ci2 hL h) (2) (by have := ci2_bounds (ρ := ρ); rw [con42_eq, abs_le]; constructor <;> linarith)).mono (A' := 2) (δ' := 809 / 10 ^ 16) (by norm_num) (by norm_num)
  exact g3

theorem i_x1m (hL : Libm.Faithful) (h : Elements o ρ) : Q (x1m o) (x1m ρ) (1) (115 / 10 ^ 16) := by
  have g1 := (Q.int 10 true 1 1 (by norm_num)).mono (A' := 1) (δ' := 0) (by norm_num) le_rfl
  have g2 := (g1.sub' (i_ci2 hL h) (1) (by have := ci2_bounds (ρ := ρ); rw [abs_le]; constructor <;> norm_num at * <;> linarith)).mono (A' := 1) (δ' := 115 / 10 ^ 16) (by norm_num) (by norm_num)
  exact g2

theorem i_b2 (hL : Libm.Faithful) (h : Elements o ρ) : Q (b2 o) (b2 ρ) (378 / 10 ^ 1) (212 / 10 ^ 13) := by
  have g1 := Q.dyadic 375 true 3 3 3 (375 / 10 ^ 3) (by norm_num) (by norm_num)
  have g2 := (g1.mul q_J2).mono (A' := 409 / 10 ^ 6) (δ' := 912 / 10 ^ 22) (by norm_num) (by norm_num)
  have g3 := (g2.mul (i_tsi hL h)).mono (A' := 459 / 10 ^ 6) (δ' := 374 / 10 ^ 19) (by norm_num) (by norm_num)
  have g4 := (g3.div (i_psi hL h) (22 / 10 ^ 2) (21 / 10 ^ 4) ((psi_lo hL h).trans (le_abs_self _)) (quot_le (m := 22 / 10 ^ 2) g3.mag ((psi_lo hL h).trans (le_abs_self _)) (by norm_num) (by norm_num))).mono (A' := 21 / 10 ^ 4) (δ' := 683 / 10 ^ 17) (by norm_num) (by norm_num)
  have g5 := (Q.int 10 true 1 1 (by norm_num)).mono (A' := 1) (δ' := 0) (by norm_num) le_rfl
  have g6 := Q.dyadic 15 true 1 3 1 (15 / 10 ^ 1) (by norm_num) (by norm_num)
  have g7 := (Q.int 40 true 1 4 (by norm_num)).mono (A' := 4) (δ' := 0) (by norm_num) le_rfl
  have g8 := (Q.int 80 true 1 8 (by norm_num)).mono (A' := 8) (δ' := 0) (by norm_num) le_rfl
  have g9 := (Q.int 30 true 1 3 (by norm_num)).mono (A' := 3) (δ' := 0) (by norm_num) le_rfl
  have g10 := (g6.mul (i_etasq hL h)).mono (A' := 117 / 10 ^ 2) (δ' := 105 / 10 ^ 14) (by norm_num) (by norm_num)
  have g11 := (g5.add g10).mono (A' := 217 / 10 ^ 2) (δ' := 106 / 10 ^ 14) (by norm_num) (by norm_num)
  have g12 := (g7.add (i_etasq hL h)).mono (A' := 478 / 10 ^ 2) (δ' := 697 / 10 ^ 15) (by norm_num) (by norm_num)
  have g13 := ((i_eeta hL h).mul g12).mono (A' := 173 / 10 ^ 2) (δ' := 104 / 10 ^ 14) (by norm_num) (by norm_num)
  have g14 := (g11.add g13).mono (A' := 39 / 10 ^ 1) (δ' := 211 / 10 ^ 14) (by norm_num) (by norm_num)
  have g15 := ((i_ao hL h).mul g14).mono (A' := 376 / 10 ^ 1) (δ' := 207 / 10 ^ 13) (by norm_num) (by norm_num)
  have g16 := (g4.mul (i_con41 hL h)).mono (A' := 42 / 10 ^ 4) (δ' := 139 / 10 ^ 16) (by norm_num) (by norm_num)
  have g17 := (g9.mul (i_etasq hL h)).mono (A' := 233 / 10 ^ 2) (δ' := 209 / 10 ^ 14) (by norm_num) (by norm_num)
  have g18 := (g8.add (i_etasq hL h)).mono (A' := 878 / 10 ^ 2) (δ' := 697 / 10 ^ 15) (by norm_num) (by norm_num)
  have g19 := (g17.mul g18).mono (A' := 205 / 10 ^ 1) (δ' := 2 / 10 ^ 11) (by norm_num) (by norm_num)
  have g20 := (g8.add g19).mono (A' := 285 / 10 ^ 1) (δ' := 201 / 10 ^ 13) (by norm_num) (by norm_num)
  have g21 := (g16.mul g20).mono (A' := 12 / 10 ^ 2) (δ' := 481 / 10 ^ 15) (by norm_num) (by norm_num)
  have g22 := (g15.add g21).mono (A' := 378 / 10 ^ 1) (δ' := 212 / 10 ^ 13) (by norm_num) (by norm_num)
  exact g22

theorem i_cc2 (hL : Libm.Faithful) (h : Elements o ρ) : Q (cc2 o) (cc2 ρ) (14 / 10 ^ 7) (171 / 10 ^ 19) := by
  have g1 := ((i_coef1 hL h).mul (i_no hL h)).mono (A' := 369 / 10 ^ 10) (δ' := 43 / 10 ^ 20) (by norm_num) (by norm_num)
  have g2 := (g1.mul (i_b2 hL h)).mono (A' := 14 / 10 ^ 7) (δ' := 171 / 10 ^ 19) (by norm_num) (by norm_num)
  exact g2

theorem i_cc1 (hL : Libm.Faithful) (h : Elements o ρ) : Q (cc1 o) (cc1 ρ) (14 / 10 ^ 10) (172 / 10 ^ 22) := by
  have g1 := ((in_bstar h).mul (i_cc2 hL h)).mono (A' := 14 / 10 ^ 10) (δ' := 172 / 10 ^ 22) (by norm_num) (by norm_num)
  exact g1

theorem apsi_lo (hL : Libm.Faithful) (h : Elements o ρ) : 42 / 10 ^ 2 ≤ |ao ρ * psi ρ| := by
  refine le_trans ?_ (le_abs_self _)
  exact le_trans (by norm_num) (mul_le_mul (ao_bounds0 hL h).1 (psi_lo hL h) (by norm_num) (le_trans (by norm_num) (ao_bounds0 hL h).1))

theorem i_b4 (hL : Libm.Faithful) (h : Elements o ρ) : Q (b4 o) (b4 ρ) (302 / 10 ^ 2) (284 / 10 ^ 14) := by
  have g1 := (Q.int 20 true 1 2 (by norm_num)).mono (A' := 2) (δ' := 0) (by norm_num) le_rfl
  have g2 := Q.dyadic 5 true 1 1 1 (5 / 10 ^ 1) (by norm_num) (by norm_num)
  have g3 := Q.dyadic 15 true 1 3 1 (15 / 10 ^ 1) (by norm_num) (by norm_num)
  have g4 := (Q.int 10 true 1 1 (by norm_num)).mono (A' := 1) (δ' := 0) (by norm_num) le_rfl
  have g5 := (Q.int 30 true 1 3 (by norm_num)).mono (A' := 3) (δ' := 0) (by norm_num) le_rfl
  have g6 := Q.dyadic 75 true 2 3 2 (75 / 10 ^ 2) (by norm_num) (by norm_num)
  have g7 := (g2.mul (i_etasq hL h)).mono (A' := 388 / 10 ^ 3) (δ' := 349 / 10 ^ 15) (by norm_num) (by norm_num)
  have g8 := (g1.add g7).mono (A' := 239 / 10 ^ 2) (δ' := 35 / 10 ^ 14) (by norm_num) (by norm_num)
  have g9 := ((i_eta hL h).mul g8).mono (A' := 211 / 10 ^ 2) (δ' := 126 / 10 ^ 14) (by norm_num) (by norm_num)
  have g10 := (g1.mul (i_etasq hL h)).mono (A' := 155 / 10 ^ 2) (δ' := 14 / 10 ^ 13) (by norm_num) (by norm_num)
  have g11 := (g2.add g10).mono (A' := 205 / 10 ^ 2) (δ' := 141 / 10 ^ 14) (by norm_num) (by norm_num)
  have g12 := ((in_ecc h).mul g11).mono (A' := 841 / 10 ^ 3) (δ' := 579 / 10 ^ 15) (by norm_num) (by norm_num)
  have g13 := (g9.add g12).mono (A' := 296 / 10 ^ 2) (δ' := 184 / 10 ^ 14) (by norm_num) (by norm_num)
  have g14 := (q_J2.mul (i_tsi hL h)).mono (A' := 123 / 10 ^ 5) (δ' := 995 / 10 ^ 19) (by norm_num) (by norm_num)
  have g15 := ((i_ao hL h).mul (i_psi hL h)).mono (A' := 963 / 10 ^ 2) (δ' := 679 / 10 ^ 14) (by norm_num) (by norm_num)
  have g16 := (g14.div g15 (42 / 10 ^ 2) (295 / 10 ^ 5) (apsi_lo hL h) (quot_le (m := 42 / 10 ^ 2) g14.mag (apsi_lo hL h) (by norm_num) (by norm_num))).mono (A' := 295 / 10 ^ 5) (δ' := 48 / 10 ^ 15) (by norm_num) (by norm_num)
  have g17 := (g1.mul (i_eeta hL h)).mono (A' := 722 / 10 ^ 3) (δ' := 327 / 10 ^ 15) (by norm_num) (by norm_num)
  have g18 := (g4.sub g17).mono (A' := 173 / 10 ^ 2) (δ' := 328 / 10 ^ 15) (by norm_num) (by norm_num)
  have g19 := (g2.mul (i_eeta hL h)).mono (A' := 181 / 10 ^ 3) (δ' := 816 / 10 ^ 16) (by norm_num) (by norm_num)
  have g20 := (g3.sub g19).mono (A' := 169 / 10 ^ 2) (δ' := 818 / 10 ^ 16) (by norm_num) (by norm_num)
  have g21 := ((i_etasq hL h).mul g20).mono (A' := 131 / 10 ^ 2) (δ' := 124 / 10 ^ 14) (by norm_num) (by norm_num)
  have g22 := (g18.add g21).mono (A' := 304 / 10 ^ 2) (δ' := 157 / 10 ^ 14) (by norm_num) (by norm_num)
  have g23 := (g5.neg).mono (A' := 3) (δ' := 0) (by norm_num) (by norm_num)
  have g24 := (g23.mul (i_con41 hL h)).mono (A' := 6) (δ' := 244 / 10 ^ 15) (by norm_num) (by norm_num)
  have g25 := (g24.mul g22).mono (A' := 183 / 10 ^ 1) (δ' := 102 / 10 ^ 13) (by norm_num) (by norm_num)
  have g26 := (g6.mul (i_x1m hL h)).mono (A' := 75 / 10 ^ 2) (δ' := 871 / 10 ^ 17) (by norm_num) (by norm_num)
  have g27 := (g1.mul (i_etasq hL h)).mono (A' := 155 / 10 ^ 2) (δ' := 14 / 10 ^ 13) (by norm_num) (by norm_num)
  have g28 := (g4.add (i_etasq hL h)).mono (A' := 178 / 10 ^ 2) (δ' := 697 / 10 ^ 15) (by norm_num) (by norm_num)
  have g29 := ((i_eeta hL h).mul g28).mono (A' := 643 / 10 ^ 3) (δ' := 542 / 10 ^ 15) (by norm_num) (by norm_num)
  have g30 := (g27.sub g29).mono (A' := 22 / 10 ^ 1) (δ' := 195 / 10 ^ 14) (by norm_num) (by norm_num)
  have g31 := (g26.mul g30).mono (A' := 165 / 10 ^ 2) (δ' := 149 / 10 ^ 14) (by norm_num) (by norm_num)
  have g32 := (g1.mul (in_argp h)).mono (A' := 126 / 10 ^ 1) (δ' := 94 / 10 ^ 16) (by norm_num) (by norm_num)
  have g33 := (g32.angle).mono (A' := 127 / 10 ^ 1) (δ' := 94 / 10 ^ 16) (by norm_num) (by norm_num)
  have g34 := (g33.cos hL).mono (A' := 1) (δ' := 13 / 10 ^ 15) (by norm_num) (by norm_num)
  have g35 := (g31.mul g34).mono (A' := 165 / 10 ^ 2) (δ' := 152 / 10 ^ 14) (by norm_num) (by norm_num)
  have g36 := (g25.add g35).mono (A' := 20) (δ' := 118 / 10 ^ 13) (by norm_num) (by norm_num)
  have g37 := (g16.mul g36).mono (A' := 59 / 10 ^ 3) (δ' := 995 / 10 ^ 15) (by norm_num) (by norm_num)
  have g38 := (g13.sub g37).mono (A' := 302 / 10 ^ 2) (δ' := 284 / 10 ^ 14) (by norm_num) (by norm_num)
  exact g38

theorem i_cc4 (hL : Libm.Faithful) (h : Elements o ρ) : Q (cc4 o) (cc4 ρ) (215 / 10 ^ 8) (271 / 10 ^ 19) := by
  have g1 := (Q.int 20 true 1 2 (by norm_num)).mono (A' := 2) (δ' := 0) (by norm_num) le_rfl
  have g2 := (g1.mul (i_no hL h)).mono (A' := 558 / 10 ^ 4) (δ' := 285 / 10 ^ 18) (by norm_num) (by norm_num)
  have g3 := (g2.mul (i_coef1 hL h)).mono (A' := 737 / 10 ^ 10) (δ' := 86 / 10 ^ 20) (by norm_num) (by norm_num)
  have g4 := (g3.mul (i_ao hL h)).mono (A' := 71 / 10 ^ 8) (δ' := 829 / 10 ^ 20) (by norm_num) (by norm_num)
  have g5 := (g4.mul (i_ome h)).mono (A' := 71 / 10 ^ 8) (δ' := 83 / 10 ^ 19) (by norm_num) (by norm_num)
  have g6 := (g5.mul (i_b4 hL h)).mono (A' := 215 / 10 ^ 8) (δ' := 271 / 10 ^ 19) (by norm_num) (by norm_num)
  exact g6

theorem posq_lo (hL : Libm.Faithful) (h : Elements o ρ) : 254 / 10 ^ 2 ≤ |posq ρ| := by
  have e : posq ρ = ao ρ * ome ρ * (ao ρ * ome ρ) := rfl
  have h1 : 1595 / 10 ^ 3 ≤ ao ρ * ome ρ :=
    le_trans (by norm_num) (mul_le_mul (ao_bounds0 hL h).1 (ome_lo h.toRanges) (by norm_num) (le_trans (by norm_num) (ao_bounds0 hL h).1))
  refine le_trans ?_ (le_abs_self _)
  rw [e]
  exact le_trans (by norm_num) (mul_le_mul h1 h1 (by norm_num) (le_trans (by norm_num) h1))

theorem i_pinv (hL : Libm.Faithful) (h : Elements o ρ) : Q (pinv o) (pinv ρ) (394 / 10 ^ 3) (229 / 10 ^ 15) := by
  have g1 := ((i_ao hL h).mul (i_ome h)).mono (A' := 963 / 10 ^ 2) (δ' := 756 / 10 ^ 16) (by norm_num) (by norm_num)
  have g2 := (Q.int 10 true 1 1 (by norm_num)).mono (A' := 1) (δ' := 0) (by norm_num) le_rfl
  have g3 := (g1.mul g1).mono (A' := 928 / 10 ^ 1) (δ' := 147 / 10 ^ 14) (by norm_num) (by norm_num)
  have g4 := (g2.div g3 (254 / 10 ^ 2) (394 / 10 ^ 3) (posq_lo hL h) (quot_le (m := 254 / 10 ^ 2) g2.mag (posq_lo hL h) (by norm_num) (by norm_num))).mono (A' := 394 / 10 ^ 3) (δ' := 229 / 10 ^ 15) (by norm_num) (by norm_num)
  exact g4

theorem i_temp1 (hL : Libm.Faithful) (h : Elements o ρ) : Q (temp1 o) (temp1 ρ) (181 / 10 ^ 7) (106 / 10 ^ 19) := by
  have g1 := Q.dyadic 15 true 1 3 1 (15 / 10 ^ 1) (by norm_num) (by norm_num)
  have g2 := (g1.mul q_J2).mono (A' := 164 / 10 ^ 5) (δ' := 365 / 10 ^ 21) (by norm_num) (by norm_num)
  have g3 := (g2.mul (i_pinv hL h)).mono (A' := 647 / 10 ^ 6) (δ' := 376 / 10 ^ 18) (by norm_num) (by norm_num)
  have g4 := (g3.mul (i_no hL h)).mono (A' := 181 / 10 ^ 7) (δ' := 106 / 10 ^ 19) (by norm_num) (by norm_num)
  exact g4

theorem i_temp2 (hL : Libm.Faithful) (h : Elements o ρ) : Q (temp2 o) (temp2 ρ) (389 / 10 ^ 11) (455 / 10 ^ 23) := by
  have g1 := Q.dyadic 5 true 1 1 1 (5 / 10 ^ 1) (by norm_num) (by norm_num)
  have g2 := (g1.mul (i_temp1 hL h)).mono (A' := 905 / 10 ^ 8) (δ' := 531 / 10 ^ 20) (by norm_num) (by norm_num)
  have g3 := (g2.mul q_J2).mono (A' := 987 / 10 ^ 11) (δ' := 58 / 10 ^ 22) (by norm_num) (by norm_num)
  have g4 := (g3.mul (i_pinv hL h)).mono (A' := 389 / 10 ^ 11) (δ' := 455 / 10 ^ 23) (by norm_num) (by norm_num)
  exact g4

theorem i_temp3 (hL : Libm.Faithful) (h : Elements o ρ) : Q (temp3 o) (temp3 ρ) (333 / 10 ^ 11) (387 / 10 ^ 23) := by
  have g1 := Q.dyadic 46875 true 5 15 5 (46875 / 10 ^ 5) (by norm_num) (by norm_num)
  have g2 := (Q.sci 161098761 true 14 (162 / 10 ^ 8) (by norm_num)).mono (A' := 162 / 10 ^ 8) (δ' := 18 / 10 ^ 23) (by norm_num) (by norm_num)
  have g3 := (g2.neg).mono (A' := 162 / 10 ^ 8) (δ' := 18 / 10 ^ 23) (by norm_num) (by norm_num)
  have g4 := (g1.neg).mono (A' := 469 / 10 ^ 3) (δ' := 0) (by norm_num) (by norm_num)
  have g5 := (g4.mul g3).mono (A' := 76 / 10 ^ 8) (δ' := 169 / 10 ^ 24) (by norm_num) (by norm_num)
  have g6 := (g5.mul (i_pinv hL h)).mono (A' := 3 / 10 ^ 7) (δ' := 175 / 10 ^ 21) (by norm_num) (by norm_num)
  have g7 := (g6.mul (i_pinv hL h)).mono (A' := 119 / 10 ^ 9) (δ' := 138 / 10 ^ 21) (by norm_num) (by norm_num)
  have g8 := (g7.mul (i_no hL h)).mono (A' := 333 / 10 ^ 11) (δ' := 387 / 10 ^ 23) (by norm_num) (by norm_num)
  exact g8

theorem i_ci4 (hL : Libm.Faithful) (h : Elements o ρ) : Q (ci4 o) (ci4 ρ) (1) (228 / 10 ^ 16) := by
  have g1 := ((i_ci2 hL h).mul (i_ci2 hL h)).mono (A' := 1) (δ' := 228 / 10 ^ 16) (by norm_num) (by norm_num)
  exact g1

theorem i_mdot (hL : Libm.Faithful) (h : Elements o ρ) : Q (mdot o) (mdot ρ) (281 / 10 ^ 4) (158 / 10 ^ 18) := by
  have g1 := Q.dyadic 5 true 1 1 1 (5 / 10 ^ 1) (by norm_num) (by norm_num)
  have g2 := Q.dyadic 625 true 4 1 4 (625 / 10 ^ 4) (by norm_num) (by norm_num)
  have g3 := (g1.mul (i_temp1 hL h)).mono (A' := 905 / 10 ^ 8) (δ' := 531 / 10 ^ 20) (by norm_num) (by norm_num)
  have g4 := (g3.mul (i_rt h)).mono (A' := 905 / 10 ^ 8) (δ' := 532 / 10 ^ 20) (by norm_num) (by norm_num)
  have g5 := (g4.mul (i_con41 hL h)).mono (A' := 181 / 10 ^ 7) (δ' := 114 / 10 ^ 19) (by norm_num) (by norm_num)
  have g6 := ((i_no hL h).add g5).mono (A' := 28 / 10 ^ 3) (δ' := 154 / 10 ^ 18) (by norm_num) (by norm_num)
  have g7 := (g2.mul (i_temp2 hL h)).mono (A' := 244 / 10 ^ 12) (δ' := 285 / 10 ^ 24) (by norm_num) (by norm_num)
  have g8 := (g7.mul (i_rt h)).mono (A' := 244 / 10 ^ 12) (δ' := 286 / 10 ^ 24) (by norm_num) (by norm_num)
  have g9 := (Q.int 130 true 1 13 (by norm_num)).mono (A' := 13) (δ' := 0) (by norm_num) le_rfl
  have g10 := (Q.int 780 true 1 78 (by norm_num)).mono (A' := 78) (δ' := 0) (by norm_num) le_rfl
  have g11 := (Q.int 1370 true 1 137 (by norm_num)).mono (A' := 137) (δ' := 0) (by norm_num) le_rfl
  have g12 := (g10.mul (i_ci2 hL h)).mono (A' := 78) (δ' := 891 / 10 ^ 15) (by norm_num) (by norm_num)
  have g13 := (g9.sub g12).mono (A' := 91) (δ' := 902 / 10 ^ 15) (by norm_num) (by norm_num)
  have g14 := (g11.mul (i_ci4 hL h)).mono (A' := 137) (δ' := 314 / 10 ^ 14) (by norm_num) (by norm_num)
  have g15 := (g13.add g14).mono (A' := 228) (δ' := 407 / 10 ^ 14) (by norm_num) (by norm_num)
  have g16 := (g8.mul g15).mono (A' := 557 / 10 ^ 10) (δ' := 663 / 10 ^ 22) (by norm_num) (by norm_num)
  have g17 := (g6.add g16).mono (A' := 281 / 10 ^ 4) (δ' := 158 / 10 ^ 18) (by norm_num) (by norm_num)
  exact g17

theorem i_argpdot (hL : Libm.Faithful) (h : Elements o ρ) : Q (argpdot o) (argpdot ρ) (367 / 10 ^ 7) (224 / 10 ^ 19) := by
  have g1 := Q.dyadic 5 true 1 1 1 (5 / 10 ^ 1) (by norm_num) (by norm_num)
  have g2 := Q.dyadic 625 true 4 1 4 (625 / 10 ^ 4) (by norm_num) (by norm_num)
  have g3 := (g1.neg).mono (A' := 5 / 10 ^ 1) (δ' := 0) (by norm_num) (by norm_num)
  have g4 := (g3.mul (i_temp1 hL h)).mono (A' := 905 / 10 ^ 8) (δ' := 531 / 10 ^ 20) (by norm_num) (by norm_num)
  have g5 := (g4.mul (i_con42 hL h)).mono (A' := 362 / 10 ^ 7) (δ' := 218 / 10 ^ 19) (by norm_num) (by norm_num)
  have g6 := (g2.mul (i_temp2 hL h)).mono (A' := 244 / 10 ^ 12) (δ' := 285 / 10 ^ 24) (by norm_num) (by norm_num)
  have g7 := (Q.int 70 true 1 7 (by norm_num)).mono (A' := 7) (δ' := 0) (by norm_num) le_rfl
  have g8 := (Q.int 1140 true 1 114 (by norm_num)).mono (A' := 114) (δ' := 0) (by norm_num) le_rfl
  have g9 := (Q.int 3950 true 1 395 (by norm_num)).mono (A' := 395) (δ' := 0) (by norm_num) le_rfl
  have g10 := (g8.mul (i_ci2 hL h)).mono (A' := 114) (δ' := 131 / 10 ^ 14) (by norm_num) (by norm_num)
  have g11 := (g7.sub g10).mono (A' := 121) (δ' := 133 / 10 ^ 14) (by norm_num) (by norm_num)
  have g12 := (g9.mul (i_ci4 hL h)).mono (A' := 395) (δ' := 905 / 10 ^ 14) (by norm_num) (by norm_num)
  have g13 := (g11.add g12).mono (A' := 516) (δ' := 105 / 10 ^ 13) (by norm_num) (by norm_num)
  have g14 := (g6.mul g13).mono (A' := 126 / 10 ^ 9) (δ' := 15 / 10 ^ 20) (by norm_num) (by norm_num)
  have g15 := (g5.add g14).mono (A' := 364 / 10 ^ 7) (δ' := 22 / 10 ^ 18) (by norm_num) (by norm_num)
  have g16 := (Q.int 30 true 1 3 (by norm_num)).mono (A' := 3) (δ' := 0) (by norm_num) le_rfl
  have g17 := (Q.int 360 true 1 36 (by norm_num)).mono (A' := 36) (δ' := 0) (by norm_num) le_rfl
  have g18 := (Q.int 490 true 1 49 (by norm_num)).mono (A' := 49) (δ' := 0) (by norm_num) le_rfl
  have g19 := (g17.mul (i_ci2 hL h)).mono (A' := 36) (δ' := 411 / 10 ^ 15) (by norm_num) (by norm_num)
  have g20 := (g16.sub g19).mono (A' := 39) (δ' := 416 / 10 ^ 15) (by norm_num) (by norm_num)
  have g21 := (g18.mul (i_ci4 hL h)).mono (A' := 49) (δ' := 113 / 10 ^ 14) (by norm_num) (by norm_num)
  have g22 := (g20.add g21).mono (A' := 88) (δ' := 156 / 10 ^ 14) (by norm_num) (by norm_num)
  have g23 := ((i_temp3 hL h).mul g22).mono (A' := 294 / 10 ^ 9) (δ' := 346 / 10 ^ 21) (by norm_num) (by norm_num)
  have g24 := (g15.add g23).mono (A' := 367 / 10 ^ 7) (δ' := 224 / 10 ^ 19) (by norm_num) (by norm_num)
  exact g24

theorem i_xhdot1 (hL : Libm.Faithful) (h : Elements o ρ) : Q (xhdot1 o) (xhdot1 ρ) (181 / 10 ^ 7) (108 / 10 ^ 19) := by
  have g1 := ((i_temp1 hL h).neg).mono (A' := 181 / 10 ^ 7) (δ' := 106 / 10 ^ 19) (by norm_num) (by norm_num)
  have g2 := (g1.mul (i_ci hL h)).mono (A' := 181 / 10 ^ 7) (δ' := 108 / 10 ^ 19) (by norm_num) (by norm_num)
  exact g2

theorem i_nodedot (hL : Libm.Faithful) (h : Elements o ρ) : Q (nodedot o) (nodedot ρ) (183 / 10 ^ 7) (11 / 10 ^ 18) := by
  have g1 := Q.dyadic 5 true 1 1 1 (5 / 10 ^ 1) (by norm_num) (by norm_num)
  have g2 := (Q.int 40 true 1 4 (by norm_num)).mono (A' := 4) (δ' := 0) (by norm_num) le_rfl
  have g3 := (Q.int 190 true 1 19 (by norm_num)).mono (A' := 19) (δ' := 0) (by norm_num) le_rfl
  have g4 := (Q.int 20 true 1 2 (by norm_num)).mono (A' := 2) (δ' := 0) (by norm_num) le_rfl
  have g5 := (Q.int 30 true 1 3 (by norm_num)).mono (A' := 3) (δ' := 0) (by norm_num) le_rfl
  have g6 := (Q.int 70 true 1 7 (by norm_num)).mono (A' := 7) (δ' := 0) (by norm_num) le_rfl
  have g7 := (g1.mul (i_temp2 hL h)).mono (A' := 195 / 10 ^ 11) (δ' := 228 / 10 ^ 23) (by norm_num) (by norm_num)
  have g8 := (g3.mul (i_ci2 hL h)).mono (A' := 19) (δ' := 217 / 10 ^ 15) (by norm_num) (by norm_num)
  have g9 := (g2.sub g8).mono (A' := 23) (δ' := 22 / 10 ^ 14) (by norm_num) (by norm_num)
  have g10 := (g7.mul g9).mono (A' := 449 / 10 ^ 10) (δ' := 529 / 10 ^ 22) (by norm_num) (by norm_num)
  have g11 := (g4.mul (i_temp3 hL h)).mono (A' := 666 / 10 ^ 11) (δ' := 775 / 10 ^ 23) (by norm_num) (by norm_num)
  have g12 := (g6.mul (i_ci2 hL h)).mono (A' := 7) (δ' := 799 / 10 ^ 16) (by norm_num) (by norm_num)
  have g13 := (g5.sub g12).mono (A' := 10) (δ' := 811 / 10 ^ 16) (by norm_num) (by norm_num)
  have g14 := (g11.mul g13).mono (A' := 666 / 10 ^ 10) (δ' := 781 / 10 ^ 22) (by norm_num) (by norm_num)
  have g15 := (g10.add g14).mono (A' := 112 / 10 ^ 9) (δ' := 132 / 10 ^ 21) (by norm_num) (by norm_num)
  have g16 := (g15.mul (i_ci hL h)).mono (A' := 112 / 10 ^ 9) (δ' := 133 / 10 ^ 21) (by norm_num) (by norm_num)
  have g17 := ((i_xhdot1 hL h).add g16).mono (A' := 183 / 10 ^ 7) (δ' := 11 / 10 ^ 18) (by norm_num) (by norm_num)
  exact g17

theorem i_nodecf (hL : Libm.Faithful) (h : Elements o ρ) : Q (nodecf o) (nodecf ρ) (888 / 10 ^ 16) (115 / 10 ^ 26) := by
  have g1 := Q.dyadic 35 true 1 7 1 (35 / 10 ^ 1) (by norm_num) (by norm_num)
  have g2 := (g1.mul (i_ome h)).mono (A' := 35 / 10 ^ 1) (δ' := 114 / 10 ^ 17) (by norm_num) (by norm_num)
  have g3 := (g2.mul (i_xhdot1 hL h)).mono (A' := 634 / 10 ^ 7) (δ' := 379 / 10 ^ 19) (by norm_num) (by norm_num)
  have g4 := (g3.mul (i_cc1 hL h)).mono (A' := 888 / 10 ^ 16) (δ' := 115 / 10 ^ 26) (by norm_num) (by norm_num)
  exact g4

theorem i_t2cof (hL : Libm.Faithful) (h : Elements o ρ) : Q (t2cof o) (t2cof ρ) (21 / 10 ^ 10) (259 / 10 ^ 22) := by
  have g1 := Q.dyadic 15 true 1 3 1 (15 / 10 ^ 1) (by norm_num) (by norm_num)
  have g2 := (g1.mul (i_cc1 hL h)).mono (A' := 21 / 10 ^ 10) (δ' := 259 / 10 ^ 22) (by norm_num) (by norm_num)
  exact g2

end
end Sat.Far
