import Verif.Props.InitChain
import Verif.Props.F64TailWide
import Verif.Props.F64Deep
import Verif.F64.Relative
/-!
# The near-earth initialisation in doubles against the same initialisation in exact arithmetic

`Elements o ρ`: the doubles handed to `sgp4init` are close to the real numbers `ρ`, which describe a near-earth orbit with perigee at least 240 km
above the surface.  The theorems `i_*` bound the error of every coefficient of the record, relative to its own size wherever that size is not known
in advance.
-/

namespace Sat.Chain
open F64

/-- finite and within `ε * |r| + δ` of `r` -/
def Near (x : F64) (r ε δ : ℝ) : Prop := x.Fin ∧ |x.val - r| ≤ ε * |r| + δ

/-- Elements of ordinary near-earth orbits: eccentricity below 0.44 and not within `10^-9` of the threshold `10^-4`, between 6.45 and 17.98
revolutions per day, perigee at least 240 km above the equatorial radius, inclination below 171 degrees. -/
structure Ranges (ρ : SGP4InitOptions ℝ) : Prop where
  ecc_lo : 0 ≤ ρ.xecco
  ecc_hi : ρ.xecco ≤ 44 / 10 ^ 2
  ecc_side : ρ.xecco + 1 / 10 ^ 9 ≤ 1 / 10 ^ 4 ∨ 1 / 10 ^ 4 + 1 / 10 ^ 9 ≤ ρ.xecco
  mot_lo : 281 / 10 ^ 4 ≤ ρ.xno
  mot_hi : ρ.xno ≤ 785 / 10 ^ 4
  incl_hi : |ρ.xinclo| ≤ 315 / 10 ^ 2
  incl_cos : 1 / 10 ^ 2 ≤ 1 + Real.cos ρ.xinclo
  argp_hi : |ρ.xargpo| ≤ 63 / 10
  node_hi : |ρ.xnodeo| ≤ 63 / 10
  anom_hi : |ρ.xmo| ≤ 63 / 10
  bstar_hi : |ρ.xbstar| ≤ 1
  perigee : 1 + 240 / 6378.137 ≤ rp ρ
  cc1_hi : |cc1 ρ| ≤ 1 / 10 ^ 2

/-- doubles close to such elements -/
structure Elements (o : SGP4InitOptions F64) (ρ : SGP4InitOptions ℝ) : Prop extends Ranges ρ where
  ecc : Near o.xecco ρ.xecco (23 / 10 ^ 17) (1 / 10 ^ 46)
  bstar : Near o.xbstar ρ.xbstar (23 / 10 ^ 17) (1 / 10 ^ 46)
  mot : Near o.xno ρ.xno (6 / 10 ^ 16) 0
  incl : Near o.xinclo ρ.xinclo 0 (2 / 10 ^ 15)
  argp : Near o.xargpo ρ.xargpo 0 (4 / 10 ^ 15)
  node : Near o.xnodeo ρ.xnodeo 0 (4 / 10 ^ 15)
  anom : Near o.xmo ρ.xmo 0 (4 / 10 ^ 15)

theorem Near.qs {x : F64} {r ε δ M : ℝ} (h : Near x r ε δ) (hM : |r| ≤ M) (h1 : 0 ≤ ε) (h2 : 0 ≤ δ) : QS x r |r| M ε δ :=
  ⟨h.1, le_rfl, hM, h.2, h1, h2⟩
theorem Near.q {x : F64} {r δ M : ℝ} (h : Near x r 0 δ) (hM : |r| ≤ M) : Q x r M δ := ⟨h.1, by have := h.2; rwa [zero_mul, zero_add] at this, hM⟩

section
variable [Libm] {o : SGP4InitOptions F64} {ρ : SGP4InitOptions ℝ}

omit [Libm] in
theorem in_ecc (h : Elements o ρ) : QS o.xecco ρ.xecco |ρ.xecco| (44 / 10 ^ 2) (23 / 10 ^ 17) (1 / 10 ^ 46) :=
  h.ecc.qs (by rw [abs_of_nonneg h.ecc_lo]; exact h.ecc_hi) (by norm_num) (by norm_num)
omit [Libm] in
theorem in_bstar (h : Elements o ρ) : QS o.xbstar ρ.xbstar |ρ.xbstar| 1 (23 / 10 ^ 17) (1 / 10 ^ 46) :=
  h.bstar.qs h.bstar_hi (by norm_num) (by norm_num)
omit [Libm] in
theorem mot_pos (h : Ranges ρ) : 0 < ρ.xno := lt_of_lt_of_le (by norm_num) h.mot_lo
omit [Libm] in
theorem in_mot (h : Elements o ρ) : QS o.xno ρ.xno |ρ.xno| (785 / 10 ^ 4) (6 / 10 ^ 16) 0 :=
  h.mot.qs (by rw [abs_of_pos (mot_pos h.toRanges)]; exact h.mot_hi) (by norm_num) le_rfl
omit [Libm] in
theorem in_incl (h : Elements o ρ) : Q o.xinclo ρ.xinclo (315 / 10 ^ 2) (2 / 10 ^ 15) := h.incl.q h.incl_hi
omit [Libm] in
theorem in_argp (h : Elements o ρ) : Q o.xargpo ρ.xargpo (63 / 10) (4 / 10 ^ 15) := h.argp.q h.argp_hi
omit [Libm] in
theorem in_node (h : Elements o ρ) : Q o.xnodeo ρ.xnodeo (63 / 10) (4 / 10 ^ 15) := h.node.q h.node_hi
omit [Libm] in
theorem in_anom (h : Elements o ρ) : Q o.xmo ρ.xmo (63 / 10) (4 / 10 ^ 15) := h.anom.q h.anom_hi

/-! ## Sizes, in exact arithmetic -/
section
omit [Libm]

theorem ecc_sq_le (h : Ranges ρ) : 0 ≤ ρ.xecco * ρ.xecco ∧ ρ.xecco * ρ.xecco ≤ 1936 / 10 ^ 4 := by
  refine ⟨mul_self_nonneg _, ?_⟩
  have := mul_le_mul h.ecc_hi h.ecc_hi h.ecc_lo (by norm_num)
  norm_num at *; linarith
theorem ome_eq : ome ρ = 1 - ρ.xecco * ρ.xecco := by show (1.0 : ℝ) - _ = _; norm_num
theorem ome_lo (h : Ranges ρ) : 806 / 10 ^ 3 ≤ ome ρ := by rw [ome_eq]; have := ecc_sq_le h; norm_num at *; linarith
theorem ome_hi (h : Ranges ρ) : ome ρ ≤ 1 := by rw [ome_eq]; have := ecc_sq_le h; linarith
theorem rt_lo (h : Ranges ρ) : 897 / 10 ^ 3 ≤ rt ρ := by
  show _ ≤ Real.sqrt (ome ρ)
  exact Real.le_sqrt_of_sq_le (le_trans (by norm_num) (ome_lo h))
theorem den1_ge (h : Ranges ρ) : 72 / 10 ^ 2 ≤ |rt ρ * ome ρ| := by
  refine le_trans ?_ (le_abs_self _)
  exact le_trans (by norm_num) (mul_le_mul (rt_lo h) (ome_lo h) (by norm_num) (le_trans (by norm_num) (rt_lo h)))
theorem mot_den (h : Ranges ρ) : 281 / 10 ^ 4 ≤ |ρ.xno| := h.mot_lo.trans (le_abs_self _)
theorem ratio0_lo (h : Ranges ρ) : 947 / 10 ^ 3 ≤ (XKE : ℝ) / ρ.xno := by
  rw [le_div_iff₀ (mot_pos h), XKE_val]; have := h.mot_hi; norm_num at *; linarith
theorem ratio0_hi (h : Ranges ρ) : (XKE : ℝ) / ρ.xno ≤ 2647 / 10 ^ 3 := by
  rw [div_le_iff₀ (mot_pos h), XKE_val]; have := h.mot_lo; norm_num at *; linarith

/-- bounds of a two-thirds power -/
theorem pow23_bounds {x a b A B : ℝ} (ha : 0 < a) (h1 : a ≤ x) (h2 : x ≤ b) (hA : 0 ≤ A) (hB : 0 ≤ B) (hAa : A ^ 3 < a ^ 2) (hBb : b ^ 2 < B ^ 3) :
    A ≤ x ^ (X2O3 : ℝ) ∧ x ^ (X2O3 : ℝ) ≤ B := by
  have h0 : 0 < x := lt_of_lt_of_le ha h1
  have h3 := pow23 h0
  constructor
  · refine le_of_lt (lt_of_pow_lt_pow_left₀ 3 (Real.rpow_nonneg h0.le _) ?_)
    rw [h3]; exact lt_of_lt_of_le hAa (pow_le_pow_left₀ ha.le h1 2)
  · refine le_of_lt (lt_of_pow_lt_pow_left₀ 3 hB ?_)
    rw [h3]; exact lt_of_le_of_lt (pow_le_pow_left₀ h0.le h2 2) hBb

theorem ak_bounds (h : Ranges ρ) : 96 / 10 ^ 2 ≤ ak ρ ∧ ak ρ ≤ 192 / 10 ^ 2 :=
  pow23_bounds (by norm_num) (ratio0_lo h) (ratio0_hi h) (by norm_num) (by norm_num) (by norm_num) (by norm_num)
theorem ak_sq (h : Ranges ρ) : 92 / 10 ^ 2 ≤ |ak ρ * ak ρ| := by
  refine le_trans ?_ (le_abs_self _)
  have := (ak_bounds h).1
  exact le_trans (by norm_num) (mul_le_mul this this (by norm_num) (le_trans (by norm_num) this))
end
theorem i_ome (h : Elements o ρ) : Q (ome o) (ome ρ) (1) (223 / 10 ^ 18) := by
  have g1 := ((in_ecc h).rmul (in_ecc h)).mono (M₁ := 194 / 10 ^ 3) (ε₁ := 572 / 10 ^ 18) (η₁ := 176 / 10 ^ 48) (by norm_num) (by norm_num) (by norm_num)
  have g2 := (g1.q g1.top).mono (A' := 194 / 10 ^ 3) (δ' := 111 / 10 ^ 18) (by norm_num) (by norm_num)
  have g3 := (Q.int 10 true 1 1 (by norm_num)).mono (A' := 1) (δ' := 0) (by norm_num) le_rfl
  have g4 := (g3.sub' g2 (1) (by show |ome ρ| ≤ _; rw [abs_of_nonneg (le_trans (by norm_num) (ome_lo h.toRanges))]; exact ome_hi h.toRanges)).mono (A' := 1) (δ' := 223 / 10 ^ 18) (by norm_num) (by norm_num)
  exact g4

theorem i_omeR (h : Elements o ρ) : QS (ome o) (ome ρ) (|ome ρ|) (1) (277 / 10 ^ 18) (0) := by
  have g1 := ((i_ome h).qs (σ := _) (m := 806 / 10 ^ 3) le_rfl (i_ome h).mag ((ome_lo h.toRanges).trans (le_abs_self _))).mono (M₁ := 1) (ε₁ := 277 / 10 ^ 18) (η₁ := 0) (by norm_num) (by norm_num) (by norm_num)
  exact g1

theorem i_rt (h : Elements o ρ) : Q (rt o) (rt ρ) (1) (36 / 10 ^ 17) := by
  have g1 := ((i_ome h).sqrt (897 / 10 ^ 3) (1) (le_trans (by norm_num) (ome_lo h.toRanges)) (by norm_num)).mono (A' := 1) (δ' := 36 / 10 ^ 17) (by norm_num) (by norm_num)
  exact g1

theorem i_ci (hL : Libm.Faithful) (h : Elements o ρ) : Q (ci o) (ci ρ) (1) (556 / 10 ^ 17) := by
  have g1 := ((in_incl h).angle).mono (A' := 316 / 10 ^ 2) (δ' := 2 / 10 ^ 15) (by norm_num) (by norm_num)
  have g2 := (g1.cos hL).mono (A' := 1) (δ' := 556 / 10 ^ 17) (by norm_num) (by norm_num)
  exact g2

theorem i_si (hL : Libm.Faithful) (h : Elements o ρ) : Q (si o) (si ρ) (1) (556 / 10 ^ 17) := by
  have g1 := ((in_incl h).angle).mono (A' := 316 / 10 ^ 2) (δ' := 2 / 10 ^ 15) (by norm_num) (by norm_num)
  have g2 := (g1.sin hL).mono (A' := 1) (δ' := 556 / 10 ^ 17) (by norm_num) (by norm_num)
  exact g2

theorem i_ci2 (hL : Libm.Faithful) (h : Elements o ρ) : Q (ci2 o) (ci2 ρ) (1) (113 / 10 ^ 16) := by
  have g1 := ((i_ci hL h).mul (i_ci hL h)).mono (A' := 1) (δ' := 113 / 10 ^ 16) (by norm_num) (by norm_num)
  exact g1

section
omit [Libm]
theorem ci2_bounds : 0 ≤ ci2 ρ ∧ ci2 ρ ≤ 1 := by
  refine ⟨mul_self_nonneg _, ?_⟩
  have h := Real.abs_cos_le_one ρ.xinclo
  have : ci2 ρ = |Real.cos ρ.xinclo| * |Real.cos ρ.xinclo| := (abs_mul_abs_self _).symm
  rw [this]
  exact (mul_le_mul h h (abs_nonneg _) (by norm_num)).trans (by norm_num)
theorem three_le : |(3.0 : ℝ) * ci2 ρ - 1.0| ≤ 2 := by
  have := ci2_bounds (ρ := ρ)
  rw [abs_le]; constructor <;> norm_num at * <;> linarith
end

theorem i_d1 (hL : Libm.Faithful) (h : Elements o ρ) : Q (d1 o) (d1 ρ) (23 / 10 ^ 4) (427 / 10 ^ 19) := by
  have g1 := (Q.int 30 true 1 3 (by norm_num)).mono (A' := 3) (δ' := 0) (by norm_num) le_rfl
  have g2 := (Q.int 10 true 1 1 (by norm_num)).mono (A' := 1) (δ' := 0) (by norm_num) le_rfl
  have g3 := Q.dyadic 75 true 2 3 2 (75 / 10 ^ 2) (by norm_num) (by norm_num)
  have g4 := (g3.mul q_J2).mono (A' := 818 / 10 ^ 6) (δ' := 183 / 10 ^ 21) (by norm_num) (by norm_num)
  have g5 := (g1.mul (i_ci2 hL h)).mono (A' := 3) (δ' := 343 / 10 ^ 16) (by norm_num) (by norm_num)
  have g6 := (g5.sub' g2 (2) three_le).mono (A' := 2) (δ' := 346 / 10 ^ 16) (by norm_num) (by norm_num)
  have g7 := (g4.mul g6).mono (A' := 164 / 10 ^ 5) (δ' := 289 / 10 ^ 19) (by norm_num) (by norm_num)
  have g8 := ((i_rt h).mul (i_ome h)).mono (A' := 1) (δ' := 695 / 10 ^ 18) (by norm_num) (by norm_num)
  have g9 := (g7.div g8 (72 / 10 ^ 2) (23 / 10 ^ 4) (den1_ge h.toRanges) (quot_le (m := 72 / 10 ^ 2) g7.mag (den1_ge h.toRanges) (by norm_num) (by norm_num))).mono (A' := 23 / 10 ^ 4) (δ' := 427 / 10 ^ 19) (by norm_num) (by norm_num)
  exact g9

theorem i_ak (hL : Libm.Faithful) (h : Elements o ρ) : Q (ak o) (ak ρ) (192 / 10 ^ 2) (212 / 10 ^ 16) := by
  have g1 := ((in_mot h).q (in_mot h).top).mono (A' := 785 / 10 ^ 4) (δ' := 471 / 10 ^ 19) (by norm_num) (by norm_num)
  have g2 := (q_XKE.div g1 (281 / 10 ^ 4) (266 / 10 ^ 2) (mot_den h.toRanges) (quot_le (m := 281 / 10 ^ 4) q_XKE.mag (mot_den h.toRanges) (by norm_num) (by norm_num))).mono (A' := 266 / 10 ^ 2) (δ' := 505 / 10 ^ 17) (by norm_num) (by norm_num)
  have g3 := (Q.powf hL g2 q_x2o3 2 (947 / 10 ^ 3) (192 / 10 ^ 2) (373 / 10 ^ 17) (96 / 10 ^ 2) (ratio0_lo h.toRanges) (ak_bounds h.toRanges).2 (ak_bounds h.toRanges).1 (by norm_num) (by norm_num) (by norm_num) (by norm_num) (by norm_num) (by norm_num) (by norm_num)).mono (A' := 192 / 10 ^ 2) (δ' := 212 / 10 ^ 16) (by norm_num) (by norm_num)
  exact g3

theorem i_del (hL : Libm.Faithful) (h : Elements o ρ) : Q (del o) (del ρ) (25 / 10 ^ 4) (27 / 10 ^ 17) := by
  have g1 := ((i_ak hL h).mul (i_ak hL h)).mono (A' := 369 / 10 ^ 2) (δ' := 819 / 10 ^ 16) (by norm_num) (by norm_num)
  have g2 := ((i_d1 hL h).div g1 (92 / 10 ^ 2) (25 / 10 ^ 4) (ak_sq h.toRanges) (quot_le (m := 92 / 10 ^ 2) (i_d1 hL h).mag (ak_sq h.toRanges) (by norm_num) (by norm_num))).mono (A' := 25 / 10 ^ 4) (δ' := 27 / 10 ^ 17) (by norm_num) (by norm_num)
  exact g2

theorem i_adel (hL : Libm.Faithful) (h : Elements o ρ) : Q (adel o) (adel ρ) (196 / 10 ^ 2) (225 / 10 ^ 16) := by
  have g1 := (Q.int 10 true 1 1 (by norm_num)).mono (A' := 1) (δ' := 0) (by norm_num) le_rfl
  have g2 := (Q.int 30 true 1 3 (by norm_num)).mono (A' := 3) (δ' := 0) (by norm_num) le_rfl
  have g3 := (g1.div g2 (3) (34 / 10 ^ 2) (by norm_num [abs_of_pos]) (quot_le (m := 3) g1.mag (by norm_num [abs_of_pos]) (by norm_num) (by norm_num))).mono (A' := 34 / 10 ^ 2) (δ' := 378 / 10 ^ 19) (by norm_num) (by norm_num)
  have g4 := (Q.int 1340 true 1 134 (by norm_num)).mono (A' := 134) (δ' := 0) (by norm_num) le_rfl
  have g5 := (Q.int 810 true 1 81 (by norm_num)).mono (A' := 81) (δ' := 0) (by norm_num) le_rfl
  have g6 := (g4.mul (i_del hL h)).mono (A' := 335 / 10 ^ 3) (δ' := 363 / 10 ^ 16) (by norm_num) (by norm_num)
  have g7 := (g6.mul (i_del hL h)).mono (A' := 838 / 10 ^ 6) (δ' := 182 / 10 ^ 18) (by norm_num) (by norm_num)
  have g8 := (g7.div g5 (81) (1 / 10 ^ 4) (by norm_num [abs_of_pos]) (quot_le (m := 81) g7.mag (by norm_num [abs_of_pos]) (by norm_num) (by norm_num))).mono (A' := 1 / 10 ^ 4) (δ' := 226 / 10 ^ 20) (by norm_num) (by norm_num)
  have g9 := ((i_del hL h).mul (i_del hL h)).mono (A' := 625 / 10 ^ 8) (δ' := 136 / 10 ^ 20) (by norm_num) (by norm_num)
  have g10 := (g1.sub g9).mono (A' := 101 / 10 ^ 2) (δ' := 113 / 10 ^ 18) (by norm_num) (by norm_num)
  have g11 := (g3.add g8).mono (A' := 341 / 10 ^ 3) (δ' := 779 / 10 ^ 19) (by norm_num) (by norm_num)
  have g12 := ((i_del hL h).mul g11).mono (A' := 853 / 10 ^ 6) (δ' := 924 / 10 ^ 19) (by norm_num) (by norm_num)
  have g13 := (g10.sub g12).mono (A' := 102 / 10 ^ 2) (δ' := 318 / 10 ^ 18) (by norm_num) (by norm_num)
  have g14 := ((i_ak hL h).mul g13).mono (A' := 196 / 10 ^ 2) (δ' := 225 / 10 ^ 16) (by norm_num) (by norm_num)
  exact g14

theorem adel_lo (hL : Libm.Faithful) (h : Elements o ρ) : 955 / 10 ^ 3 ≤ adel ρ := by
  have h1 := (i_del hL h).mag
  have h2 := (ak_bounds h.toRanges).1
  obtain ⟨a1, a2⟩ := abs_le.mp h1
  have e : adel ρ = ak ρ * (1 - del ρ * del ρ - del ρ * (1 / 3 + 134 * (del ρ * del ρ) / 81)) := by
    show ak ρ * (1.0 - del ρ * del ρ - del ρ * ((1.0 : ℝ) / 3.0 + 134.0 * del ρ * del ρ / 81.0)) = _
    norm_num; ring_nf; try norm_num
  have s1 : del ρ * del ρ ≤ 1 / 10 ^ 5 := by
    rw [← abs_mul_abs_self]
    exact (mul_le_mul h1 h1 (abs_nonneg _) (by norm_num)).trans (by norm_num)
  have s0 : 0 ≤ del ρ * del ρ := mul_self_nonneg _
  have s2 : del ρ * (1 / 3 + 134 * (del ρ * del ρ) / 81) ≤ 1 / 10 ^ 3 := by
    have b0 : 0 ≤ 1 / 3 + 134 * (del ρ * del ρ) / 81 := by positivity
    have b1 : 1 / 3 + 134 * (del ρ * del ρ) / 81 ≤ 34 / 10 ^ 2 := by norm_num at *; linarith
    exact (mul_le_mul a2 b1 b0 (by norm_num)).trans (by norm_num)
  rw [e]
  refine le_trans ?_ (mul_le_mul h2 (show 9985 / 10 ^ 4 ≤ 1 - del ρ * del ρ - del ρ * (1 / 3 + 134 * (del ρ * del ρ) / 81) by norm_num at *; linarith)
    (by norm_num) (le_trans (by norm_num) h2))
  norm_num
theorem adel_sq (hL : Libm.Faithful) (h : Elements o ρ) : 91 / 10 ^ 2 ≤ |adel ρ * adel ρ| := by
  refine le_trans ?_ (le_abs_self _)
  have := adel_lo hL h
  exact le_trans (by norm_num) (mul_le_mul this this (by norm_num) (le_trans (by norm_num) this))

theorem i_del2 (hL : Libm.Faithful) (h : Elements o ρ) : Q (del2 o) (del2 ρ) (26 / 10 ^ 4) (301 / 10 ^ 18) := by
  have g1 := ((i_adel hL h).mul (i_adel hL h)).mono (A' := 385 / 10 ^ 2) (δ' := 887 / 10 ^ 16) (by norm_num) (by norm_num)
  have g2 := ((i_d1 hL h).div g1 (91 / 10 ^ 2) (26 / 10 ^ 4) (adel_sq hL h) (quot_le (m := 91 / 10 ^ 2) (i_d1 hL h).mag (adel_sq hL h) (by norm_num) (by norm_num))).mono (A' := 26 / 10 ^ 4) (δ' := 301 / 10 ^ 18) (by norm_num) (by norm_num)
  exact g2

theorem kozai_bounds (hL : Libm.Faithful) (h : Elements o ρ) : 997 / 10 ^ 3 ≤ (1.0 : ℝ) + del2 ρ ∧ (1.0 : ℝ) + del2 ρ ≤ 1003 / 10 ^ 3 := by
  obtain ⟨a1, a2⟩ := abs_le.mp (i_del2 hL h).mag
  constructor <;> norm_num at * <;> linarith
theorem no_bounds (hL : Libm.Faithful) (h : Elements o ρ) : 28 / 10 ^ 3 ≤ no ρ ∧ no ρ ≤ 788 / 10 ^ 4 := by
  obtain ⟨a1, a2⟩ := kozai_bounds hL h
  have p : (0 : ℝ) < 1.0 + del2 ρ := lt_of_lt_of_le (by norm_num) a1
  have h1 := h.mot_lo
  have h2 := h.mot_hi
  show _ ≤ ρ.xno / (1.0 + del2 ρ) ∧ ρ.xno / (1.0 + del2 ρ) ≤ _
  rw [le_div_iff₀ p, div_le_iff₀ p]
  constructor <;> norm_num at * <;> linarith
theorem no_pos (hL : Libm.Faithful) (h : Elements o ρ) : 0 < no ρ := lt_of_lt_of_le (by norm_num) (no_bounds hL h).1
theorem ratio_bounds (hL : Libm.Faithful) (h : Elements o ρ) : 943 / 10 ^ 3 ≤ (XKE : ℝ) / no ρ ∧ (XKE : ℝ) / no ρ ≤ 2657 / 10 ^ 3 := by
  obtain ⟨a1, a2⟩ := no_bounds hL h
  rw [le_div_iff₀ (no_pos hL h), div_le_iff₀ (no_pos hL h), XKE_val]
  constructor <;> norm_num at * <;> linarith
theorem ao_bounds0 (hL : Libm.Faithful) (h : Elements o ρ) : 96 / 10 ^ 2 ≤ ao ρ ∧ ao ρ ≤ 192 / 10 ^ 2 :=
  pow23_bounds (by norm_num) (ratio_bounds hL h).1 (ratio_bounds hL h).2 (by norm_num) (by norm_num) (by norm_num) (by norm_num)

theorem i_no (hL : Libm.Faithful) (h : Elements o ρ) : QS (no o) (no ρ) (|no ρ|) (788 / 10 ^ 4) (114 / 10 ^ 17) (0) := by
  have g1 := (Q.int 10 true 1 1 (by norm_num)).mono (A' := 1) (δ' := 0) (by norm_num) le_rfl
  have g2 := (g1.add' (i_del2 hL h) (1003 / 10 ^ 3) (by rw [abs_of_pos (lt_of_lt_of_le (by norm_num) (kozai_bounds hL h).1)]; exact (kozai_bounds hL h).2)).mono (A' := 101 / 10 ^ 2) (δ' := 413 / 10 ^ 18) (by norm_num) (by norm_num)
  have g3 := (g2.qs (σ := _) (m := 997 / 10 ^ 3) le_rfl g2.mag ((kozai_bounds hL h).1.trans (le_abs_self _))).mono (M₁ := 101 / 10 ^ 2) (ε₁ := 415 / 10 ^ 18) (η₁ := 0) (by norm_num) (by norm_num) (by norm_num)
  have g4 := ((in_mot h).rdiv g3 (997 / 10 ^ 3) ((kozai_bounds hL h).1.trans (le_abs_self _))).mono (M₁ := 788 / 10 ^ 4) (ε₁ := 113 / 10 ^ 17) (η₁ := 876 / 10 ^ 49) (by norm_num) (by norm_num) (by norm_num)
  have g5 := (g4.absorb (28 / 10 ^ 3) ((no_bounds hL h).1.trans (le_abs_self _))).mono (M₁ := 788 / 10 ^ 4) (ε₁ := 114 / 10 ^ 17) (η₁ := 0) (by norm_num) (by norm_num) (by norm_num)
  exact g5

theorem i_ao (hL : Libm.Faithful) (h : Elements o ρ) : QS (ao o) (ao ρ) (|ao ρ|) (192 / 10 ^ 2) (471 / 10 ^ 17) (0) := by
  have g1 := (q_XKE.qs (σ := _) (m := 743 / 10 ^ 4) le_rfl q_XKE.mag XKE_ge).mono (M₁ := 744 / 10 ^ 4) (ε₁ := 112 / 10 ^ 18) (η₁ := 0) (by norm_num) (by norm_num) (by norm_num)
  have g2 := (g1.rdiv (i_no hL h) (28 / 10 ^ 3) ((no_bounds hL h).1.trans (le_abs_self _))).mono (M₁ := 266 / 10 ^ 2) (ε₁ := 137 / 10 ^ 17) (η₁ := 876 / 10 ^ 49) (by norm_num) (by norm_num) (by norm_num)
  have g3 := (g2.absorb (943 / 10 ^ 3) ((ratio_bounds hL h).1.trans (le_abs_self _))).mono (M₁ := 266 / 10 ^ 2) (ε₁ := 138 / 10 ^ 17) (η₁ := 0) (by norm_num) (by norm_num) (by norm_num)
  have g4 := (QS.powf hL g3 q_x2o3 3 (192 / 10 ^ 2) (115 / 10 ^ 17) (96 / 10 ^ 2) (lt_of_lt_of_le (by norm_num) (ratio_bounds hL h).1) (ao_bounds0 hL h).2 (ao_bounds0 hL h).1 (by norm_num) (by have := (ratio_bounds hL h).1; norm_num at *; linarith) (by have := (ratio_bounds hL h).2; norm_num at *; linarith) (by norm_num) (by norm_num) (by norm_num) (by norm_num)).mono (M₁ := 192 / 10 ^ 2) (ε₁ := 471 / 10 ^ 17) (η₁ := 0) (by norm_num) (by norm_num) (by norm_num)
  exact g4

/-! ## The drag parameters -/
section
omit [Libm]
theorem ER_val : (EARTH_RADIUS : ℝ) = 6378.137 := rfl
theorem ER_ge : 6378 ≤ |(EARTH_RADIUS : ℝ)| := by rw [ER_val, abs_of_pos (by norm_num)]; norm_num
theorem ss_val : (ss : ℝ) = 1 + 78 / 6378.137 := by
  show (78.0 : ℝ) / EARTH_RADIUS + 1.0 = _
  rw [ER_val]; norm_num
theorem qt_ge : 658 / 10 ^ 5 ≤ |(qt : ℝ)| := by
  have : (qt : ℝ) = (120.0 - 78.0) / EARTH_RADIUS := rfl
  rw [this, ER_val, abs_of_pos (by norm_num)]; norm_num
end

theorem i_ss : Q (ss : F64) (ss : ℝ) (102 / 10 ^ 2) (116 / 10 ^ 18) := by
  have g1 := (Q.int 780 true 1 78 (by norm_num)).mono (A' := 78) (δ' := 0) (by norm_num) le_rfl
  have g2 := (Q.int 10 true 1 1 (by norm_num)).mono (A' := 1) (δ' := 0) (by norm_num) le_rfl
  have g3 := (g1.div q_ER (6378) (1223 / 10 ^ 5) ER_ge (quot_le (m := 6378) g1.mag ER_ge (by norm_num) (by norm_num))).mono (A' := 123 / 10 ^ 4) (δ' := 272 / 10 ^ 20) (by norm_num) (by norm_num)
  have g4 := (g3.add g2).mono (A' := 102 / 10 ^ 2) (δ' := 116 / 10 ^ 18) (by norm_num) (by norm_num)
  exact g4

theorem i_qt : Q (qt : F64) (qt : ℝ) (659 / 10 ^ 5) (22 / 10 ^ 19) := by
  have g1 := (Q.int 1200 true 1 120 (by norm_num)).mono (A' := 120) (δ' := 0) (by norm_num) le_rfl
  have g2 := (Q.int 780 true 1 78 (by norm_num)).mono (A' := 78) (δ' := 0) (by norm_num) le_rfl
  have g3 := (g1.sub' g2 (42) (by norm_num [abs_of_pos])).mono (A' := 42) (δ' := 467 / 10 ^ 17) (by norm_num) (by norm_num)
  have g4 := (g3.div q_ER (6378) (659 / 10 ^ 5) ER_ge (quot_le (m := 6378) g3.mag ER_ge (by norm_num) (by norm_num))).mono (A' := 659 / 10 ^ 5) (δ' := 22 / 10 ^ 19) (by norm_num) (by norm_num)
  exact g4

theorem i_qz : QS (qz : F64) (qz : ℝ) |(qz : ℝ)| (19 / 10 ^ 10) (168 / 10 ^ 17) (882 / 10 ^ 49) := by
  have g1 := (i_qt.qs (σ := _) (m := 658 / 10 ^ 5) le_rfl i_qt.mag qt_ge).mono (M₁ := 659 / 10 ^ 5) (ε₁ := 335 / 10 ^ 18) (η₁ := 0) (by norm_num) (by norm_num) (by norm_num)
  have g2 := (g1.rmul g1).mono (M₁ := 435 / 10 ^ 7) (ε₁ := 782 / 10 ^ 18) (η₁ := 876 / 10 ^ 49) (by norm_num) (by norm_num) (by norm_num)
  have g3 := (g2.rmul g1).mono (M₁ := 287 / 10 ^ 9) (ε₁ := 123 / 10 ^ 17) (η₁ := 882 / 10 ^ 49) (by norm_num) (by norm_num) (by norm_num)
  have g4 := (g3.rmul g1).mono (M₁ := 19 / 10 ^ 10) (ε₁ := 168 / 10 ^ 17) (η₁ := 882 / 10 ^ 49) (by norm_num) (by norm_num) (by norm_num)
  exact g4

theorem ao_lo (hL : Libm.Faithful) (h : Elements o ρ) : 1 + 240 / 6378.137 ≤ ao ρ := by
  have h1 := h.perigee
  have e : rp ρ = ao ρ * (1 - ρ.xecco) := by show ao ρ * ((1.0 : ℝ) - _) = _; norm_num
  have := mul_nonneg (le_trans (by norm_num : (0:ℝ) ≤ 96 / 10 ^ 2) (ao_bounds0 hL h).1) h.ecc_lo
  rw [e] at h1; linarith
/-- the height above the parameter `s` -/
theorem y_bounds (hL : Libm.Faithful) (h : Elements o ρ) : 253 / 10 ^ 4 ≤ ao ρ - ss ∧ ao ρ - ss ≤ 908 / 10 ^ 3 := by
  have h1 := ao_lo hL h
  have h2 := (ao_bounds0 hL h).2
  rw [ss_val]
  constructor <;> norm_num at * <;> linarith
theorem y_pos (hL : Libm.Faithful) (h : Elements o ρ) : 0 < ao ρ - ss := lt_of_lt_of_le (by norm_num) (y_bounds hL h).1
omit [Libm] in
theorem tsi_eq : tsi ρ = 1 / (ao ρ - ss) := by show (1.0 : ℝ) / _ = _; norm_num
theorem tsi_pos (hL : Libm.Faithful) (h : Elements o ρ) : 0 < tsi ρ := by rw [tsi_eq]; exact one_div_pos.mpr (y_pos hL h)
theorem tsi_lo (hL : Libm.Faithful) (h : Elements o ρ) : 11 / 10 ≤ tsi ρ := by
  rw [tsi_eq, le_div_iff₀ (y_pos hL h)]
  have := (y_bounds hL h).2
  norm_num at *; linarith
/-- sensitivity of the drag terms to the semi-major axis -/
noncomputable def sens (ρ : SGP4InitOptions ℝ) : ℝ := ao ρ * tsi ρ
theorem sens_mul (hL : Libm.Faithful) (h : Elements o ρ) : sens ρ * (ao ρ - ss) = ao ρ := by
  unfold sens; rw [tsi_eq]; field_simp [(y_pos hL h).ne']
theorem sens_ge (hL : Libm.Faithful) (h : Elements o ρ) : 1 ≤ sens ρ := by
  have h1 := sens_mul hL h
  have h2 := y_pos hL h
  by_contra hc
  push Not at hc
  have h3 : (0:ℝ) < ss := by rw [ss_val]; norm_num
  nlinarith
omit [Libm] in
theorem eta_eq : eta ρ = sens ρ * ρ.xecco := by show ao ρ * ρ.xecco * tsi ρ = ao ρ * tsi ρ * ρ.xecco; ring
theorem eta_nonneg (hL : Libm.Faithful) (h : Elements o ρ) : 0 ≤ eta ρ := by
  rw [eta_eq]; exact mul_nonneg (le_trans zero_le_one (sens_ge hL h)) h.ecc_lo
/-- `(a - s) * eta = a - r_p` -/
theorem eta_mul (hL : Libm.Faithful) (h : Elements o ρ) : (ao ρ - ss) * eta ρ = ao ρ - rp ρ := by
  have e : rp ρ = ao ρ * (1 - ρ.xecco) := by show ao ρ * ((1.0 : ℝ) - _) = _; norm_num
  rw [eta_eq, e, show (ao ρ - ss) * (sens ρ * ρ.xecco) = sens ρ * (ao ρ - ss) * ρ.xecco by ring, sens_mul hL h]; ring
theorem eta_lt (hL : Libm.Faithful) (h : Elements o ρ) : eta ρ < 1 := by
  have h1 := eta_mul hL h
  have h2 := y_pos hL h
  have h3 := h.perigee
  have h4 : (ss : ℝ) < rp ρ := by rw [ss_val]; norm_num at *; linarith
  by_contra hc
  push Not at hc
  nlinarith
theorem etasq_bounds (hL : Libm.Faithful) (h : Elements o ρ) : 0 ≤ etasq ρ ∧ etasq ρ < 1 := by
  have h1 := eta_nonneg hL h
  have h2 := eta_lt hL h
  have e : etasq ρ = eta ρ * eta ρ := rfl
  rw [e]; constructor <;> nlinarith
theorem psi_eq (hL : Libm.Faithful) (h : Elements o ρ) : psi ρ = 1 - etasq ρ := by
  have := etasq_bounds hL h
  show |(1.0 : ℝ) - etasq ρ| = _
  rw [abs_of_nonneg (by norm_num at *; linarith)]; norm_num
theorem psi_pos (hL : Libm.Faithful) (h : Elements o ρ) : 0 < psi ρ := by
  rw [psi_eq hL h]; have := (etasq_bounds hL h).2; linarith
theorem psi_le (hL : Libm.Faithful) (h : Elements o ρ) : psi ρ ≤ 1 := by
  rw [psi_eq hL h]; have := (etasq_bounds hL h).1; linarith
/-- the sensitivity is large only for low orbits -/
theorem sens_le (hL : Libm.Faithful) (h : Elements o ρ) : sens ρ ≤ 42 * psi ρ := by
  have y0 := y_pos hL h
  have h1 := eta_mul hL h
  have h3 := h.perigee
  have hA := (ao_bounds0 hL h).2
  have hp : rp ρ ≤ ao ρ := by
    have : 0 ≤ (ao ρ - ss) * eta ρ := mul_nonneg y0.le (eta_nonneg hL h)
    linarith
  have e1 : (ao ρ - ss) ^ 2 * (42 * psi ρ) = 42 * ((rp ρ - ss) * (2 * ao ρ - rp ρ - ss)) := by
    rw [psi_eq hL h]
    have : (ao ρ - ss) ^ 2 * etasq ρ = (ao ρ - rp ρ) ^ 2 := by
      rw [← h1]; show _ * (eta ρ * eta ρ) = _; ring
    calc (ao ρ - ss) ^ 2 * (42 * (1 - etasq ρ)) = 42 * ((ao ρ - ss) ^ 2 - (ao ρ - ss) ^ 2 * etasq ρ) := by ring
      _ = _ := by rw [this]; ring
  have e2 : (ao ρ - ss) ^ 2 * sens ρ = ao ρ * (ao ρ - ss) := by
    rw [show (ao ρ - ss) ^ 2 * sens ρ = sens ρ * (ao ρ - ss) * (ao ρ - ss) by ring, sens_mul hL h]
  have key : ao ρ * (ao ρ - ss) ≤ 42 * ((rp ρ - ss) * (2 * ao ρ - rp ρ - ss)) := by
    generalize ao ρ = A at *
    generalize rp ρ = p at *
    rw [ss_val] at *
    have g1 : 42 * ((1 + 240 / 6378.137 - (1 + 78 / 6378.137)) * (2 * A - (1 + 240 / 6378.137) - (1 + 78 / 6378.137))) ≤
        42 * ((p - (1 + 78 / 6378.137)) * (2 * A - p - (1 + 78 / 6378.137))) := by
      have : 0 ≤ (p - (1 + 240 / 6378.137)) * ((A - p) + (A - (1 + 240 / 6378.137))) :=
        mul_nonneg (by linarith) (by linarith)
      nlinarith
    refine le_trans ?_ g1
    have g2 : 0 ≤ (A - (1 + 240 / 6378.137)) * (192 / 10 ^ 2 - A) := mul_nonneg (by linarith) (by linarith)
    norm_num at *
    nlinarith
  by_contra hc
  push Not at hc
  have := mul_lt_mul_of_pos_left hc (pow_pos y0 2)
  rw [e1, e2] at this
  linarith
theorem sens_hi (hL : Libm.Faithful) (h : Elements o ρ) : sens ρ ≤ 42 := by
  have := sens_le hL h
  have := psi_le hL h
  linarith
theorem psi_lo (hL : Libm.Faithful) (h : Elements o ρ) : 23 / 10 ^ 3 ≤ psi ρ := by
  have := sens_le hL h
  have := sens_ge hL h
  norm_num at *; linarith
theorem tsi_hi (hL : Libm.Faithful) (h : Elements o ρ) : tsi ρ ≤ 405 / 10 := by
  have h1 := sens_hi hL h
  have h2 := ao_lo hL h
  have h3 := tsi_pos hL h
  unfold sens at h1
  have := mul_le_mul_of_nonneg_right h2 h3.le
  norm_num at *; linarith
theorem tsi_psi (hL : Libm.Faithful) (h : Elements o ρ) : tsi ρ ≤ 405 / 10 * psi ρ := by
  have h1 := sens_le hL h
  have h2 := ao_lo hL h
  have h3 := tsi_pos hL h
  have h4 := psi_pos hL h
  unfold sens at h1
  have := mul_le_mul_of_nonneg_right h2 h3.le
  norm_num at *; linarith

/-- the difference `a - s` -/
theorem i_y (hL : Libm.Faithful) (h : Elements o ρ) : QS (ao o - ss) (ao ρ - ss) |ao ρ - ss| 1 (494 / 10 ^ 17 * sens ρ) 0 := by
  have y0 := y_pos hL h
  have qa := i_ao hL h
  have qs := i_ss
  have hr := sub_rounds qa.fin qs.fin
  have a0 : 0 < ao ρ := lt_of_lt_of_le (by norm_num) (ao_bounds0 hL h).1
  have ea := qa.err
  rw [abs_of_pos a0] at ea
  have e1 : (ao o).val - (ss : F64).val - (ao ρ - ss) = ((ao o).val - ao ρ) - ((ss : F64).val - (ss : ℝ)) := by ring
  have e2 : |(ao o).val - (ss : F64).val - (ao ρ - ss)| ≤ 471 / 10 ^ 17 * ao ρ + 116 / 10 ^ 18 := by
    rw [e1]; refine (abs_sub _ _).trans ?_
    have := qs.err
    linarith
  have hA := (ao_bounds0 hL h).2
  have e3 : |(ao o).val - (ss : F64).val| ≤ 1 := by
    have e : (ao o).val - (ss : F64).val = (ao ρ - ss) + ((ao o).val - (ss : F64).val - (ao ρ - ss)) := by ring
    rw [e]; refine (abs_add_le _ _).trans ?_
    rw [abs_of_pos y0]
    have := (y_bounds hL h).2
    norm_num at *; linarith
  obtain ⟨f1, f2⟩ := hr.near e3 (by norm_num)
  refine ⟨f1, le_rfl, by rw [abs_of_pos y0]; exact (y_bounds hL h).2.trans (by norm_num), ?_, mul_nonneg (by norm_num) (le_trans zero_le_one (sens_ge hL h)), le_rfl⟩
  rw [abs_of_pos y0, mul_assoc, sens_mul hL h, add_zero]
  have f2' : |(ao o - ss).val - ((ao o).val - (ss : F64).val)| ≤ 1 / 2 ^ 53 + 1 / 2 ^ 153 := f2
  have e4 : (ao o - ss).val - (ao ρ - ss) = ((ao o - ss).val - ((ao o).val - (ss : F64).val)) + ((ao o).val - (ss : F64).val - (ao ρ - ss)) := by ring
  rw [e4]; refine (abs_add_le _ _).trans ?_
  have := ao_lo hL h
  norm_num at *; linarith

theorem i_tsiU (hL : Libm.Faithful) (h : Elements o ρ) : QS (tsi o) (tsi ρ) |tsi ρ| (405 / 10) (507 / 10 ^ 17 * sens ρ) (1 / 10 ^ 46) := by
  have hu := sens_ge hL h
  have hu2 := sens_hi hL h
  have y := i_y hL h
  have one := (Q.int 10 true 1 1 (by norm_num)).qs (σ := |(1.0 : ℝ)|) (M := 1) (m := 1) le_rfl (by norm_num) (by norm_num)
  have one' := one.mono (M₁ := 1) (ε₁ := 0) (η₁ := 0) le_rfl (by norm_num) le_rfl
  set E := 494 / 10 ^ 17 * sens ρ with hE
  have E0 : 0 ≤ E := y.eps
  have E1 : E ≤ 1 / 10 ^ 12 := by rw [hE]; norm_num at *; linarith
  have r := one'.rdiv y (253 / 10 ^ 4) ((y_bounds hL h).1.trans (le_abs_self _)) (by norm_num) (by norm_num at *; linarith) (by norm_num at *; linarith)
  have d0 : 0 < 1 - E := by norm_num at *; linarith
  have e1 : (0 + E) / (1 - E) ≤ E * (1 + 1 / 10 ^ 11) := by
    rw [zero_add, div_le_iff₀ d0]; nlinarith
  have r2 := r.mono (M₁ := 40) (ε₁ := 507 / 10 ^ 17 * sens ρ) (η₁ := 1 / 10 ^ 46) (by norm_num) (by
    have e2 : E * (1 + 1 / 10 ^ 11) + 12 / 10 ^ 17 * sens ρ ≤ 507 / 10 ^ 17 * sens ρ := by rw [hE]; norm_num at *; linarith
    generalize (0 + E) / (1 - E) = w at *
    norm_num at *; linarith) (by norm_num)
  have r3 := r2.cap (M' := 405 / 10) (by
    show |tsi ρ| ≤ _
    rw [abs_of_pos (tsi_pos hL h)]; exact tsi_hi hL h)
  exact r3

theorem i_aoe (hL : Libm.Faithful) (h : Elements o ρ) : QS (ao o * o.xecco) (ao ρ * ρ.xecco) |ao ρ * ρ.xecco| (845 / 10 ^ 3) (506 / 10 ^ 17 * sens ρ) (28 / 10 ^ 47) := by
  have g1 := ((i_ao hL h).rmul (in_ecc h)).mono (M₁ := 845 / 10 ^ 3) (ε₁ := 506 / 10 ^ 17) (η₁ := 28 / 10 ^ 47) (by norm_num) (by norm_num) (by norm_num)
  have hu := sens_ge hL h
  exact g1.mono le_rfl (by norm_num at *; linarith) le_rfl

theorem i_etaU (hL : Libm.Faithful) (h : Elements o ρ) : QS (eta o) (eta ρ) |eta ρ| 1 (103 / 10 ^ 16 * sens ρ) (116 / 10 ^ 46) := by
  have hu := sens_ge hL h
  have hu2 := sens_hi hL h
  have r := (i_aoe hL h).umul (i_tsiU hL h) hu (by norm_num at *; linarith) (by norm_num at *; linarith)
  have r2 := r.mono (M₁ := 100) (ε₁ := 103 / 10 ^ 16 * sens ρ) (η₁ := 116 / 10 ^ 46) (by norm_num) (mul_le_mul_of_nonneg_right (by norm_num) (le_trans zero_le_one hu)) (by norm_num)
  have r3 := r2.cap (M' := 1) (by show |eta ρ| ≤ _; rw [abs_of_nonneg (eta_nonneg hL h)]; exact (eta_lt hL h).le)
  exact r3

theorem i_etasqU (hL : Libm.Faithful) (h : Elements o ρ) : QS (etasq o) (etasq ρ) |etasq ρ| 1 (208 / 10 ^ 16 * sens ρ) (233 / 10 ^ 46) := by
  have hu := sens_ge hL h
  have hu2 := sens_hi hL h
  have r := (i_etaU hL h).umul (i_etaU hL h) hu (by norm_num at *; linarith) (by norm_num at *; linarith)
  have r2 := r.mono (M₁ := 1) (ε₁ := 208 / 10 ^ 16 * sens ρ) (η₁ := 233 / 10 ^ 46) (by norm_num) (mul_le_mul_of_nonneg_right (by norm_num) (le_trans zero_le_one hu)) (by norm_num)
  exact r2

theorem i_psi (hL : Libm.Faithful) (h : Elements o ρ) : QS (psi o) (psi ρ) |psi ρ| 1 (882 / 10 ^ 15) 0 := by
  have hu := sens_ge hL h
  have hu2 := sens_hi hL h
  have p := psi_pos hL h
  have hs := sens_le hL h
  have es := etasq_bounds hL h
  have q0 := i_etasqU hL h
  have q : Q (etasq o) (etasq ρ) 1 (208 / 10 ^ 16 * sens ρ + 233 / 10 ^ 46) := by
    have := q0.q (C := 1) q0.top
    rwa [mul_one] at this
  have one := (Q.int 10 true 1 1 (by norm_num)).mono (A' := 1) (δ' := 0) (by norm_num) le_rfl
  have d := (one.sub' q 1 (by
    rw [abs_of_nonneg (by norm_num at *; linarith)]; norm_num at *; linarith) (by norm_num at *; linarith)).abs
  refine ⟨d.fin, le_rfl, by rw [abs_of_pos p]; exact psi_le hL h, ?_, by norm_num, le_rfl⟩
  have d' : |(psi o).val - psi ρ| ≤ _ := d.err
  refine d'.trans ?_
  rw [abs_of_pos p]
  norm_num at *; linarith

theorem i_tsi (hL : Libm.Faithful) (h : Elements o ρ) : QS (tsi o) (tsi ρ) |tsi ρ| (405 / 10 ^ 1) (213 / 10 ^ 15) (1 / 10 ^ 46) := by
  have hu2 := sens_hi hL h
  exact (i_tsiU hL h).mono (by norm_num) (by norm_num at *; linarith) le_rfl

theorem i_etaR (hL : Libm.Faithful) (h : Elements o ρ) : QS (eta o) (eta ρ) |eta ρ| (1) (433 / 10 ^ 15) (116 / 10 ^ 46) := by
  have hu2 := sens_hi hL h
  exact (i_etaU hL h).mono (by norm_num) (by norm_num at *; linarith) le_rfl

theorem i_etasqR (hL : Libm.Faithful) (h : Elements o ρ) : QS (etasq o) (etasq ρ) |etasq ρ| (1) (874 / 10 ^ 15) (233 / 10 ^ 46) := by
  have hu2 := sens_hi hL h
  exact (i_etasqU hL h).mono (by norm_num) (by norm_num at *; linarith) le_rfl

theorem i_eta (hL : Libm.Faithful) (h : Elements o ρ) : Q (eta o) (eta ρ) 1 (169 / 10 ^ 15) := by
  have q := i_etaU hL h
  have e0 := eta_nonneg hL h
  have e1 := eta_lt hL h
  refine ⟨q.fin, q.err.trans ?_, q.mag.trans q.top⟩
  rw [abs_of_nonneg e0]
  have hs := sens_le hL h
  rw [psi_eq hL h, show etasq ρ = eta ρ * eta ρ from rfl] at hs
  have k : (1 - eta ρ * eta ρ) * eta ρ ≤ 39 / 10 ^ 2 := by
    nlinarith [mul_nonneg (show (0:ℝ) ≤ eta ρ + 115 / 100 by linarith) (sq_nonneg (eta ρ - 577 / 1000))]
  have := mul_le_mul_of_nonneg_right hs e0
  norm_num at *; linarith
theorem i_etasq (hL : Libm.Faithful) (h : Elements o ρ) : Q (etasq o) (etasq ρ) 1 (219 / 10 ^ 15) := by
  have q := i_etasqU hL h
  obtain ⟨e0, e1⟩ := etasq_bounds hL h
  refine ⟨q.fin, q.err.trans ?_, q.mag.trans q.top⟩
  rw [abs_of_nonneg e0]
  have hs := sens_le hL h
  rw [psi_eq hL h] at hs
  have k : (1 - etasq ρ) * etasq ρ ≤ 1 / 4 := by nlinarith [sq_nonneg (etasq ρ - 1 / 2)]
  have := mul_le_mul_of_nonneg_right hs e0
  norm_num at *; linarith

theorem i_eetaR (hL : Libm.Faithful) (h : Elements o ρ) : QS (eeta o) (eeta ρ) (|eeta ρ|) (44 / 10 ^ 2) (434 / 10 ^ 15) (53 / 10 ^ 46) := by
  have g1 := ((in_ecc h).rmul (i_etaR hL h)).mono (M₁ := 44 / 10 ^ 2) (ε₁ := 434 / 10 ^ 15) (η₁ := 53 / 10 ^ 46) (by norm_num) (by norm_num) (by norm_num)
  have g2 := g1.cap (M' := 44 / 10 ^ 2) (by rw [abs_mul]; exact (mul_le_mul (in_ecc h).top (i_etaR hL h).top (abs_nonneg _) (by norm_num)).trans (by norm_num))
  exact g2

theorem i_eeta (hL : Libm.Faithful) (h : Elements o ρ) : Q (eeta o) (eeta ρ) (44 / 10 ^ 2) (746 / 10 ^ 16) := by
  have g1 := ((in_ecc h).q (in_ecc h).top).mono (A' := 44 / 10 ^ 2) (δ' := 102 / 10 ^ 18) (by norm_num) (by norm_num)
  have g2 := (g1.mul (i_eta hL h)).mono (A' := 44 / 10 ^ 2) (δ' := 746 / 10 ^ 16) (by norm_num) (by norm_num)
  exact g2

theorem coef_lo (hL : Libm.Faithful) (h : Elements o ρ) : 25 / 10 ^ 10 ≤ |coef ρ| := by
  refine le_trans ?_ (le_abs_self _)
  have t := tsi_lo hL h
  have e : coef ρ = qz * (tsi ρ * tsi ρ * (tsi ρ * tsi ρ)) := rfl
  have q : (18 / 10 ^ 10 : ℝ) ≤ qz := by
    have e : (qz : ℝ) = qt * qt * qt * qt := rfl
    have e2 : (qt : ℝ) = (120.0 - 78.0) / EARTH_RADIUS := rfl
    rw [e, e2, ER_val]; norm_num
  have t2 : (121 / 100 : ℝ) ≤ tsi ρ * tsi ρ := by nlinarith
  have t4 : (146 / 100 : ℝ) ≤ tsi ρ * tsi ρ * (tsi ρ * tsi ρ) := by nlinarith
  rw [e]
  exact le_trans (by norm_num) (mul_le_mul q t4 (by norm_num) (le_trans (by norm_num) q))

theorem i_coef (hL : Libm.Faithful) (h : Elements o ρ) : QS (coef o) (coef ρ) (|coef ρ|) (519 / 10 ^ 5) (858 / 10 ^ 15) (0) := by
  have g1 := ((i_tsi hL h).rmul (i_tsi hL h)).mono (M₁ := 1650) (ε₁ := 427 / 10 ^ 15) (η₁ := 819 / 10 ^ 47) (by norm_num) (by norm_num) (by norm_num)
  have g2 := ((i_tsi hL h).rmul (i_tsi hL h)).mono (M₁ := 1650) (ε₁ := 427 / 10 ^ 15) (η₁ := 819 / 10 ^ 47) (by norm_num) (by norm_num) (by norm_num)
  have g3 := (g1.rmul g2).mono (M₁ := 2730000) (ε₁ := 855 / 10 ^ 15) (η₁ := 271 / 10 ^ 43) (by norm_num) (by norm_num) (by norm_num)
  have g4 := (i_qz.rmul g3).mono (M₁ := 519 / 10 ^ 5) (ε₁ := 857 / 10 ^ 15) (η₁ := 241 / 10 ^ 42) (by norm_num) (by norm_num) (by norm_num)
  have g5 := (g4.absorb (25 / 10 ^ 10) (coef_lo hL h)).mono (M₁ := 519 / 10 ^ 5) (ε₁ := 858 / 10 ^ 15) (η₁ := 0) (by norm_num) (by norm_num) (by norm_num)
  exact g5

theorem psi35 (hL : Libm.Faithful) (h : Elements o ρ) : 2 / 10 ^ 7 ≤ psi ρ ^ (3.5 : ℝ) ∧ psi ρ ^ (3.5 : ℝ) ≤ 1 := by
  have p := psi_pos hL h
  have p1 := psi_le hL h
  constructor
  · have h1 : psi ρ ^ (4 : ℝ) ≤ psi ρ ^ (3.5 : ℝ) := Real.rpow_le_rpow_of_exponent_ge p p1 (by norm_num)
    refine le_trans ?_ h1
    have h2 : psi ρ ^ (4 : ℝ) = psi ρ ^ 4 := by exact_mod_cast Real.rpow_natCast (psi ρ) 4
    rw [h2]
    exact le_trans (by norm_num) (pow_le_pow_left₀ (by norm_num) (psi_lo hL h) 4)
  · exact Real.rpow_le_one p.le p1 (by norm_num)

theorem coef1_lo (hL : Libm.Faithful) (h : Elements o ρ) : 25 / 10 ^ 10 ≤ |coef1 ρ| := by
  have e : coef1 ρ = coef ρ / psi ρ ^ (3.5 : ℝ) := rfl
  obtain ⟨h1, h2⟩ := psi35 hL h
  have p : 0 < psi ρ ^ (3.5 : ℝ) := lt_of_lt_of_le (by norm_num) h1
  rw [e, abs_div, abs_of_pos p, le_div_iff₀ p]
  have := coef_lo hL h
  exact le_trans (by norm_num at *; linarith) this

theorem i_coef1 (hL : Libm.Faithful) (h : Elements o ρ) : QS (coef1 o) (coef1 ρ) (|coef1 ρ|) (26000) (397 / 10 ^ 14) (0) := by
  have g1 := Q.dyadic 35 true 1 7 1 (35 / 10 ^ 1) (by norm_num) (by norm_num)
  have g2 := (QS.powf hL (i_psi hL h) g1 7 1 (309 / 10 ^ 14) (2 / 10 ^ 7) (psi_pos hL h) (psi35 hL h).2 (psi35 hL h).1 (by norm_num) (by have := psi_lo hL h; norm_num at *; linarith) (by have := psi_le hL h; norm_num at *; linarith) (by norm_num) (by norm_num) (by norm_num) (by norm_num)).mono (M₁ := 1) (ε₁ := 31 / 10 ^ 13) (η₁ := 0) (by norm_num) (by norm_num) (by norm_num)
  have g3 := ((i_coef hL h).rdiv g2 (2 / 10 ^ 7) ((psi35 hL h).1.trans (le_abs_self _))).mono (M₁ := 26000) (ε₁ := 396 / 10 ^ 14) (η₁ := 876 / 10 ^ 49) (by norm_num) (by norm_num) (by norm_num)
  have g4 := (g3.absorb (25 / 10 ^ 10) (coef1_lo hL h)).mono (M₁ := 26000) (ε₁ := 397 / 10 ^ 14) (η₁ := 0) (by norm_num) (by norm_num) (by norm_num)
  exact g4

theorem i_con42 (hL : Libm.Faithful) (h : Elements o ρ) : Q (con42 o) (con42 ρ) (4) (576 / 10 ^ 16) := by
  have g1 := (Q.int 10 true 1 1 (by norm_num)).mono (A' := 1) (δ' := 0) (by norm_num) le_rfl
  have g2 := (Q.int 50 true 1 5 (by norm_num)).mono (A' := 5) (δ' := 0) (by norm_num) le_rfl
  have g3 := (g2.mul (i_ci2 hL h)).mono (A' := 5) (δ' := 571 / 10 ^ 16) (by norm_num) (by norm_num)
  have g4 := (g1.sub' g3 (4) (by have := ci2_bounds (ρ := ρ); rw [abs_le]; constructor <;> norm_num at * <;> linarith)).mono (A' := 4) (δ' := 576 / 10 ^ 16) (by norm_num) (by norm_num)
  exact g4

omit [Libm] in
theorem con42_eq : con42 ρ = 1 - 5 * ci2 ρ := by show (1.0 : ℝ) - 5.0 * _ = _; norm_num
omit [Libm] in
theorem con41_eq : con41 ρ = 3 * ci2 ρ - 1 := by
  show -con42 ρ - ci2 ρ - ci2 ρ = _; rw [con42_eq]; ring

theorem i_con41 (hL : Libm.Faithful) (h : Elements o ρ) : Q (con41 o) (con41 ρ) (2) (809 / 10 ^ 16) := by
  have g1 := ((i_con42 hL h).neg).mono (A' := 4) (δ' := 576 / 10 ^ 16) (by norm_num) (by norm_num)
  have g2 := (g1.sub' (i_ci2 hL h) (3) (by have := ci2_bounds (ρ := ρ); rw [con42_eq, abs_le]; constructor <;> linarith)).mono (A' := 3) (δ' := 693 / 10 ^ 16) (by norm_num) (by norm_num)
  have g3 := (g2.sub' (i_ci2 hL h) (2) (by have := ci2_bounds (ρ := ρ); rw [con42_eq, abs_le]; constructor <;> linarith)).mono (A' := 2) (δ' := 809 / 10 ^ 16) (by norm_num) (by norm_num)
  exact g3

theorem i_x1m (hL : Libm.Faithful) (h : Elements o ρ) : Q (x1m o) (x1m ρ) (1) (115 / 10 ^ 16) := by
  have g1 := (Q.int 10 true 1 1 (by norm_num)).mono (A' := 1) (δ' := 0) (by norm_num) le_rfl
  have g2 := (g1.sub' (i_ci2 hL h) (1) (by have := ci2_bounds (ρ := ρ); rw [abs_le]; constructor <;> norm_num at * <;> linarith)).mono (A' := 1) (δ' := 115 / 10 ^ 16) (by norm_num) (by norm_num)
  exact g2

theorem i_x7 (hL : Libm.Faithful) (h : Elements o ρ) : Q (x7 o) (x7 ρ) (8) (808 / 10 ^ 16) := by
  have g1 := (Q.int 70 true 1 7 (by norm_num)).mono (A' := 7) (δ' := 0) (by norm_num) le_rfl
  have g2 := (Q.int 10 true 1 1 (by norm_num)).mono (A' := 1) (δ' := 0) (by norm_num) le_rfl
  have g3 := (g1.mul (i_ci2 hL h)).mono (A' := 7) (δ' := 799 / 10 ^ 16) (by norm_num) (by norm_num)
  have g4 := (g3.sub g2).mono (A' := 8) (δ' := 808 / 10 ^ 16) (by norm_num) (by norm_num)
  exact g4

section
omit [Libm]
theorem J2_val : (J2 : ℝ) = 0.00108262998905 := rfl
end
theorem drag_k (hL : Libm.Faithful) (h : Elements o ρ) : 0 ≤ (0.375 : ℝ) * J2 * tsi ρ / psi ρ ∧ (0.375 : ℝ) * J2 * tsi ρ / psi ρ ≤ 165 / 10 ^ 4 := by
  have p := psi_pos hL h
  have t := tsi_pos hL h
  have := tsi_psi hL h
  rw [J2_val]
  refine ⟨by positivity, ?_⟩
  rw [div_le_iff₀ p]
  norm_num at *; linarith

theorem i_b2 (hL : Libm.Faithful) (h : Elements o ρ) : Q (b2 o) (b2 ρ) (102 / 10 ^ 1) (315 / 10 ^ 14) := by
  have g1 := Q.dyadic 375 true 3 3 3 (375 / 10 ^ 3) (by norm_num) (by norm_num)
  have g2 := (g1.qs (σ := _) (m := 375 / 10 ^ 3) le_rfl g1.mag (by norm_num [abs_of_pos])).mono (M₁ := 375 / 10 ^ 3) (ε₁ := 0) (η₁ := 0) (by norm_num) (by norm_num) (by norm_num)
  have g3 := (q_J2.qs (σ := _) (m := 108 / 10 ^ 5) le_rfl q_J2.mag J2_ge).mono (M₁ := 109 / 10 ^ 5) (ε₁ := 113 / 10 ^ 18) (η₁ := 0) (by norm_num) (by norm_num) (by norm_num)
  have g4 := (g2.rmul g3).mono (M₁ := 409 / 10 ^ 6) (ε₁ := 225 / 10 ^ 18) (η₁ := 876 / 10 ^ 49) (by norm_num) (by norm_num) (by norm_num)
  have g5 := (g4.rmul (i_tsi hL h)).mono (M₁ := 166 / 10 ^ 4) (ε₁ := 214 / 10 ^ 15) (η₁ := 364 / 10 ^ 47) (by norm_num) (by norm_num) (by norm_num)
  have g6 := (g5.rdiv (i_psi hL h) (23 / 10 ^ 3) ((psi_lo hL h).trans (le_abs_self _))).mono (M₁ := 722 / 10 ^ 3) (ε₁ := 11 / 10 ^ 13) (η₁ := 317 / 10 ^ 45) (by norm_num) (by norm_num) (by norm_num)
  have g7 := g6.cap (M' := 165 / 10 ^ 4) (by rw [abs_of_nonneg (drag_k hL h).1]; exact (drag_k hL h).2)
  have g8 := (g7.q g7.top).mono (A' := 165 / 10 ^ 4) (δ' := 182 / 10 ^ 16) (by norm_num) (by norm_num)
  have g9 := (Q.int 10 true 1 1 (by norm_num)).mono (A' := 1) (δ' := 0) (by norm_num) le_rfl
  have g10 := Q.dyadic 15 true 1 3 1 (15 / 10 ^ 1) (by norm_num) (by norm_num)
  have g11 := (Q.int 40 true 1 4 (by norm_num)).mono (A' := 4) (δ' := 0) (by norm_num) le_rfl
  have g12 := (Q.int 80 true 1 8 (by norm_num)).mono (A' := 8) (δ' := 0) (by norm_num) le_rfl
  have g13 := (Q.int 30 true 1 3 (by norm_num)).mono (A' := 3) (δ' := 0) (by norm_num) le_rfl
  have g14 := ((i_ao hL h).q (i_ao hL h).top).mono (A' := 192 / 10 ^ 2) (δ' := 905 / 10 ^ 17) (by norm_num) (by norm_num)
  have g15 := (g10.mul (i_etasq hL h)).mono (A' := 15 / 10 ^ 1) (δ' := 329 / 10 ^ 15) (by norm_num) (by norm_num)
  have g16 := (g9.add g15).mono (A' := 25 / 10 ^ 1) (δ' := 33 / 10 ^ 14) (by norm_num) (by norm_num)
  have g17 := (g11.add (i_etasq hL h)).mono (A' := 5) (δ' := 22 / 10 ^ 14) (by norm_num) (by norm_num)
  have g18 := ((i_eeta hL h).mul g17).mono (A' := 22 / 10 ^ 1) (δ' := 471 / 10 ^ 15) (by norm_num) (by norm_num)
  have g19 := (g16.add g18).mono (A' := 47 / 10 ^ 1) (δ' := 802 / 10 ^ 15) (by norm_num) (by norm_num)
  have g20 := (g14.mul g19).mono (A' := 903 / 10 ^ 2) (δ' := 159 / 10 ^ 14) (by norm_num) (by norm_num)
  have g21 := (g8.mul (i_con41 hL h)).mono (A' := 33 / 10 ^ 3) (δ' := 378 / 10 ^ 16) (by norm_num) (by norm_num)
  have g22 := (g13.mul (i_etasq hL h)).mono (A' := 3) (δ' := 658 / 10 ^ 15) (by norm_num) (by norm_num)
  have g23 := (g12.add (i_etasq hL h)).mono (A' := 9) (δ' := 22 / 10 ^ 14) (by norm_num) (by norm_num)
  have g24 := (g22.mul g23).mono (A' := 27) (δ' := 659 / 10 ^ 14) (by norm_num) (by norm_num)
  have g25 := (g12.add g24).mono (A' := 35) (δ' := 66 / 10 ^ 13) (by norm_num) (by norm_num)
  have g26 := (g21.mul g25).mono (A' := 116 / 10 ^ 2) (δ' := 155 / 10 ^ 14) (by norm_num) (by norm_num)
  have g27 := (g20.add g26).mono (A' := 102 / 10 ^ 1) (δ' := 315 / 10 ^ 14) (by norm_num) (by norm_num)
  exact g27

theorem eeta_nonneg (hL : Libm.Faithful) (h : Elements o ρ) : 0 ≤ eeta ρ := mul_nonneg h.ecc_lo (eta_nonneg hL h)
theorem b2_lo (hL : Libm.Faithful) (h : Elements o ρ) : 86 / 10 ^ 2 ≤ b2 ρ := by
  obtain ⟨k0, k1⟩ := drag_k hL h
  obtain ⟨x0, x1⟩ := etasq_bounds hL h
  have e0 := eeta_nonneg hL h
  have a1 := ao_lo hL h
  have hc := ci2_bounds (ρ := ρ)
  have e : b2 ρ = ao ρ * (1 + 3 / 2 * etasq ρ + eeta ρ * (4 + etasq ρ)) + (0.375 : ℝ) * J2 * tsi ρ / psi ρ * con41 ρ * (8 + 3 * etasq ρ * (8 + etasq ρ)) := by
    show ao ρ * (1.0 + 1.5 * etasq ρ + eeta ρ * (4.0 + etasq ρ)) + (0.375 : ℝ) * J2 * tsi ρ / psi ρ * con41 ρ * (8.0 + 3.0 * etasq ρ * (8.0 + etasq ρ)) = _
    norm_num
  rw [e, con41_eq]
  generalize (0.375 : ℝ) * J2 * tsi ρ / psi ρ = K at *
  have p0 : 0 ≤ 8 + 3 * etasq ρ * (8 + etasq ρ) := by positivity
  have h1 : -(K * (8 + 3 * etasq ρ * (8 + etasq ρ))) ≤ K * (3 * ci2 ρ - 1) * (8 + 3 * etasq ρ * (8 + etasq ρ)) := by
    have : 0 ≤ K * (3 * ci2 ρ) * (8 + 3 * etasq ρ * (8 + etasq ρ)) := by
      have := hc.1
      positivity
    linarith
  have h2 : K * (8 + 3 * etasq ρ * (8 + etasq ρ)) ≤ 165 / 10 ^ 4 * (8 + 3 * etasq ρ * (8 + etasq ρ)) := mul_le_mul_of_nonneg_right k1 p0
  have a1' : (1 : ℝ) ≤ ao ρ := by norm_num at *; linarith
  have h3 : 1 + 3 / 2 * etasq ρ ≤ ao ρ * (1 + 3 / 2 * etasq ρ + eeta ρ * (4 + etasq ρ)) := by
    have q0 : 0 ≤ eeta ρ * (4 + etasq ρ) := by positivity
    have := mul_le_mul a1' (show 1 + 3 / 2 * etasq ρ ≤ 1 + 3 / 2 * etasq ρ + eeta ρ * (4 + etasq ρ) by linarith) (by positivity) (by linarith)
    linarith
  have h4 : 165 / 10 ^ 4 * (8 + 3 * etasq ρ * (8 + etasq ρ)) ≤ 132 / 10 ^ 3 + 45 / 10 ^ 2 * etasq ρ := by
    have : etasq ρ * etasq ρ ≤ etasq ρ := by nlinarith
    norm_num at *; nlinarith
  norm_num at *
  linarith

theorem i_b2R (hL : Libm.Faithful) (h : Elements o ρ) : QS (b2 o) (b2 ρ) (|b2 ρ|) (102 / 10 ^ 1) (367 / 10 ^ 14) (0) := by
  have g1 := ((i_b2 hL h).qs (σ := _) (m := 86 / 10 ^ 2) le_rfl (i_b2 hL h).mag ((b2_lo hL h).trans (le_abs_self _))).mono (M₁ := 102 / 10 ^ 1) (ε₁ := 367 / 10 ^ 14) (η₁ := 0) (by norm_num) (by norm_num) (by norm_num)
  exact g1

theorem i_cc2 (hL : Libm.Faithful) (h : Elements o ρ) : QS (cc2 o) (cc2 ρ) (|cc2 ρ|) (21000) (766 / 10 ^ 14) (982 / 10 ^ 48) := by
  have g1 := ((i_coef1 hL h).rmul (i_no hL h)).mono (M₁ := 2050) (ε₁ := 398 / 10 ^ 14) (η₁ := 876 / 10 ^ 49) (by norm_num) (by norm_num) (by norm_num)
  have g2 := (g1.rmul (i_b2R hL h)).mono (M₁ := 21000) (ε₁ := 766 / 10 ^ 14) (η₁ := 982 / 10 ^ 48) (by norm_num) (by norm_num) (by norm_num)
  exact g2

theorem i_cc1 (hL : Libm.Faithful) (h : Elements o ρ) : QS (cc1 o) (cc1 ρ) (|cc1 ρ|) (1 / 10 ^ 2) (767 / 10 ^ 14) (211 / 10 ^ 44) := by
  have g1 := ((in_bstar h).rmul (i_cc2 hL h)).mono (M₁ := 21000) (ε₁ := 767 / 10 ^ 14) (η₁ := 211 / 10 ^ 44) (by norm_num) (by norm_num) (by norm_num)
  have g2 := g1.cap (M' := 1 / 10 ^ 2) h.cc1_hi
  exact g2

theorem drag_k4 (hL : Libm.Faithful) (h : Elements o ρ) : 0 ≤ (J2 : ℝ) * tsi ρ / (ao ρ * psi ρ) ∧ (J2 : ℝ) * tsi ρ / (ao ρ * psi ρ) ≤ 44 / 10 ^ 3 := by
  have p := psi_pos hL h
  have t := tsi_pos hL h
  have a1 : (1 : ℝ) ≤ ao ρ := by have := ao_lo hL h; norm_num at *; linarith
  have h1 := tsi_psi hL h
  rw [J2_val]
  refine ⟨by positivity, ?_⟩
  rw [div_le_iff₀ (by positivity)]
  have : psi ρ ≤ ao ρ * psi ρ := by nlinarith
  norm_num at *; linarith
theorem ao_psi (hL : Libm.Faithful) (h : Elements o ρ) : 23 / 10 ^ 3 ≤ |ao ρ * psi ρ| := by
  refine le_trans ?_ (le_abs_self _)
  have a1 : (1 : ℝ) ≤ ao ρ := by have := ao_lo hL h; norm_num at *; linarith
  have p := psi_lo hL h
  nlinarith

theorem i_b4 (hL : Libm.Faithful) (h : Elements o ρ) : Q (b4 o) (b4 ρ) (465 / 10 ^ 2) (211 / 10 ^ 14) := by
  have g1 := (Q.int 20 true 1 2 (by norm_num)).mono (A' := 2) (δ' := 0) (by norm_num) le_rfl
  have g2 := Q.dyadic 5 true 1 1 1 (5 / 10 ^ 1) (by norm_num) (by norm_num)
  have g3 := Q.dyadic 15 true 1 3 1 (15 / 10 ^ 1) (by norm_num) (by norm_num)
  have g4 := (Q.int 10 true 1 1 (by norm_num)).mono (A' := 1) (δ' := 0) (by norm_num) le_rfl
  have g5 := (Q.int 30 true 1 3 (by norm_num)).mono (A' := 3) (δ' := 0) (by norm_num) le_rfl
  have g6 := Q.dyadic 75 true 2 3 2 (75 / 10 ^ 2) (by norm_num) (by norm_num)
  have g7 := (g2.mul (i_etasq hL h)).mono (A' := 5 / 10 ^ 1) (δ' := 11 / 10 ^ 14) (by norm_num) (by norm_num)
  have g8 := (g1.add g7).mono (A' := 25 / 10 ^ 1) (δ' := 111 / 10 ^ 15) (by norm_num) (by norm_num)
  have g9 := ((i_eta hL h).mul g8).mono (A' := 25 / 10 ^ 1) (δ' := 534 / 10 ^ 15) (by norm_num) (by norm_num)
  have g10 := ((in_ecc h).q (in_ecc h).top).mono (A' := 44 / 10 ^ 2) (δ' := 102 / 10 ^ 18) (by norm_num) (by norm_num)
  have g11 := (g1.mul (i_etasq hL h)).mono (A' := 2) (δ' := 439 / 10 ^ 15) (by norm_num) (by norm_num)
  have g12 := (g2.add g11).mono (A' := 25 / 10 ^ 1) (δ' := 44 / 10 ^ 14) (by norm_num) (by norm_num)
  have g13 := (g10.mul g12).mono (A' := 11 / 10 ^ 1) (δ' := 194 / 10 ^ 15) (by norm_num) (by norm_num)
  have g14 := (g9.add g13).mono (A' := 36 / 10 ^ 1) (δ' := 729 / 10 ^ 15) (by norm_num) (by norm_num)
  have g15 := (q_J2.qs (σ := _) (m := 108 / 10 ^ 5) le_rfl q_J2.mag J2_ge).mono (M₁ := 109 / 10 ^ 5) (ε₁ := 113 / 10 ^ 18) (η₁ := 0) (by norm_num) (by norm_num) (by norm_num)
  have g16 := (g15.rmul (i_tsi hL h)).mono (M₁ := 442 / 10 ^ 4) (ε₁ := 214 / 10 ^ 15) (η₁ := 877 / 10 ^ 49) (by norm_num) (by norm_num) (by norm_num)
  have g17 := ((i_ao hL h).rmul (i_psi hL h)).mono (M₁ := 192 / 10 ^ 2) (ε₁ := 887 / 10 ^ 15) (η₁ := 876 / 10 ^ 49) (by norm_num) (by norm_num) (by norm_num)
  have g18 := (g17.absorb (23 / 10 ^ 3) (ao_psi hL h)).mono (M₁ := 192 / 10 ^ 2) (ε₁ := 888 / 10 ^ 15) (η₁ := 0) (by norm_num) (by norm_num) (by norm_num)
  have g19 := (g16.rdiv g18 (23 / 10 ^ 3) (ao_psi hL h)).mono (M₁ := 193 / 10 ^ 2) (ε₁ := 111 / 10 ^ 14) (η₁ := 772 / 10 ^ 47) (by norm_num) (by norm_num) (by norm_num)
  have g20 := g19.cap (M' := 44 / 10 ^ 3) (by rw [abs_of_nonneg (drag_k4 hL h).1]; exact (drag_k4 hL h).2)
  have g21 := (g20.q g20.top).mono (A' := 44 / 10 ^ 3) (δ' := 489 / 10 ^ 16) (by norm_num) (by norm_num)
  have g22 := (g5.neg).mono (A' := 3) (δ' := 0) (by norm_num) (by norm_num)
  have g23 := (g22.mul (i_con41 hL h)).mono (A' := 6) (δ' := 244 / 10 ^ 15) (by norm_num) (by norm_num)
  have g24 := (g1.mul (i_eeta hL h)).mono (A' := 88 / 10 ^ 2) (δ' := 15 / 10 ^ 14) (by norm_num) (by norm_num)
  have g25 := (g4.sub g24).mono (A' := 188 / 10 ^ 2) (δ' := 151 / 10 ^ 15) (by norm_num) (by norm_num)
  have g26 := (g2.mul (i_eeta hL h)).mono (A' := 22 / 10 ^ 2) (δ' := 374 / 10 ^ 16) (by norm_num) (by norm_num)
  have g27 := (g3.sub g26).mono (A' := 172 / 10 ^ 2) (δ' := 376 / 10 ^ 16) (by norm_num) (by norm_num)
  have g28 := ((i_etasq hL h).mul g27).mono (A' := 172 / 10 ^ 2) (δ' := 415 / 10 ^ 15) (by norm_num) (by norm_num)
  have g29 := (g25.add g28).mono (A' := 36 / 10 ^ 1) (δ' := 567 / 10 ^ 15) (by norm_num) (by norm_num)
  have g30 := (g23.mul g29).mono (A' := 216 / 10 ^ 1) (δ' := 429 / 10 ^ 14) (by norm_num) (by norm_num)
  have g31 := (g1.mul (in_argp h)).mono (A' := 126 / 10 ^ 1) (δ' := 94 / 10 ^ 16) (by norm_num) (by norm_num)
  have g32 := (g31.angle).mono (A' := 127 / 10 ^ 1) (δ' := 94 / 10 ^ 16) (by norm_num) (by norm_num)
  have g33 := (g32.cos hL).mono (A' := 1) (δ' := 13 / 10 ^ 15) (by norm_num) (by norm_num)
  have g34 := (g6.mul (i_x1m hL h)).mono (A' := 75 / 10 ^ 2) (δ' := 871 / 10 ^ 17) (by norm_num) (by norm_num)
  have g35 := (g1.mul (i_etasq hL h)).mono (A' := 2) (δ' := 439 / 10 ^ 15) (by norm_num) (by norm_num)
  have g36 := (g4.add (i_etasq hL h)).mono (A' := 2) (δ' := 22 / 10 ^ 14) (by norm_num) (by norm_num)
  have g37 := ((i_eeta hL h).mul g36).mono (A' := 88 / 10 ^ 2) (δ' := 247 / 10 ^ 15) (by norm_num) (by norm_num)
  have g38 := (g35.sub g37).mono (A' := 288 / 10 ^ 2) (δ' := 687 / 10 ^ 15) (by norm_num) (by norm_num)
  have g39 := (g34.mul g38).mono (A' := 216 / 10 ^ 2) (δ' := 541 / 10 ^ 15) (by norm_num) (by norm_num)
  have g40 := (g39.mul g33).mono (A' := 216 / 10 ^ 2) (δ' := 57 / 10 ^ 14) (by norm_num) (by norm_num)
  have g41 := (g30.add g40).mono (A' := 238 / 10 ^ 1) (δ' := 487 / 10 ^ 14) (by norm_num) (by norm_num)
  have g42 := (g21.mul g41).mono (A' := 105 / 10 ^ 2) (δ' := 138 / 10 ^ 14) (by norm_num) (by norm_num)
  have g43 := (g14.sub g42).mono (A' := 465 / 10 ^ 2) (δ' := 211 / 10 ^ 14) (by norm_num) (by norm_num)
  exact g43

theorem i_cc4 (hL : Libm.Faithful) (h : Elements o ρ) : QS (cc4 o) (cc4 ρ) (|2.0 * no ρ * coef1 ρ * ao ρ * ome ρ| * (465 / 10 ^ 2)) (36800) (446 / 10 ^ 14) (205 / 10 ^ 43) := by
  have g1 := ((i_b4 hL h).qs (σ := 465 / 10 ^ 2) (M := 465 / 10 ^ 2) (m := 465 / 10 ^ 2) (i_b4 hL h).mag le_rfl le_rfl).mono (M₁ := 465 / 10 ^ 2) (ε₁ := 454 / 10 ^ 15) (η₁ := 0) (by norm_num) (by norm_num) (by norm_num)
  have g2 := (Q.int 20 true 1 2 (by norm_num)).qs (σ := _) (M := 2) (m := 2) le_rfl (by norm_num) (by norm_num)
  have g3 := (g2).mono (M₁ := 2) (ε₁ := 0) (η₁ := 0) (by norm_num) (by norm_num) (by norm_num)
  have g4 := (g3.rmul (i_no hL h)).mono (M₁ := 158 / 10 ^ 3) (ε₁ := 126 / 10 ^ 17) (η₁ := 876 / 10 ^ 49) (by norm_num) (by norm_num) (by norm_num)
  have g5 := (g4.rmul (i_coef1 hL h)).mono (M₁ := 4110) (ε₁ := 398 / 10 ^ 14) (η₁ := 228 / 10 ^ 44) (by norm_num) (by norm_num) (by norm_num)
  have g6 := (g5.rmul (i_ao hL h)).mono (M₁ := 7900) (ε₁ := 399 / 10 ^ 14) (η₁ := 438 / 10 ^ 44) (by norm_num) (by norm_num) (by norm_num)
  have g7 := (g6.rmul (i_omeR h)).mono (M₁ := 7900) (ε₁ := 4 / 10 ^ 12) (η₁ := 439 / 10 ^ 44) (by norm_num) (by norm_num) (by norm_num)
  have g8 := (g7.mul g1).mono (M₁ := 36800) (ε₁ := 446 / 10 ^ 14) (η₁ := 205 / 10 ^ 43) (by norm_num) (by norm_num) (by norm_num)
  exact g8

theorem b5_lo (hL : Libm.Faithful) (h : Elements o ρ) : 1 ≤ (1.0 : ℝ) + 2.75 * (etasq ρ + eeta ρ) + eeta ρ * etasq ρ := by
  have x0 := (etasq_bounds hL h).1
  have e0 := eeta_nonneg hL h
  have := mul_nonneg e0 x0
  norm_num at *; linarith

theorem i_cc5 (hL : Libm.Faithful) (h : Elements o ρ) : QS (cc5 o) (cc5 ρ) (|cc5 ρ|) (540000) (499 / 10 ^ 14) (195 / 10 ^ 47) := by
  have g1 := (Q.int 20 true 1 2 (by norm_num)).qs (σ := _) (M := 2) (m := 2) le_rfl (by norm_num) (by norm_num)
  have g2 := (g1).mono (M₁ := 2) (ε₁ := 0) (η₁ := 0) (by norm_num) (by norm_num) (by norm_num)
  have g3 := (Q.int 10 true 1 1 (by norm_num)).mono (A' := 1) (δ' := 0) (by norm_num) le_rfl
  have g4 := Q.dyadic 275 true 2 11 2 (275 / 10 ^ 2) (by norm_num) (by norm_num)
  have g5 := (g2.rmul (i_coef1 hL h)).mono (M₁ := 52000) (ε₁ := 398 / 10 ^ 14) (η₁ := 876 / 10 ^ 49) (by norm_num) (by norm_num) (by norm_num)
  have g6 := (g5.rmul (i_ao hL h)).mono (M₁ := 99900) (ε₁ := 399 / 10 ^ 14) (η₁ := 256 / 10 ^ 48) (by norm_num) (by norm_num) (by norm_num)
  have g7 := (g6.rmul (i_omeR h)).mono (M₁ := 99900) (ε₁ := 4 / 10 ^ 12) (η₁ := 344 / 10 ^ 48) (by norm_num) (by norm_num) (by norm_num)
  have g8 := ((i_etasq hL h).add (i_eeta hL h)).mono (A' := 144 / 10 ^ 2) (δ' := 294 / 10 ^ 15) (by norm_num) (by norm_num)
  have g9 := (g4.mul g8).mono (A' := 396 / 10 ^ 2) (δ' := 809 / 10 ^ 15) (by norm_num) (by norm_num)
  have g10 := (g3.add g9).mono (A' := 496 / 10 ^ 2) (δ' := 81 / 10 ^ 14) (by norm_num) (by norm_num)
  have g11 := ((i_eeta hL h).mul (i_etasq hL h)).mono (A' := 44 / 10 ^ 2) (δ' := 172 / 10 ^ 15) (by norm_num) (by norm_num)
  have g12 := (g10.add g11).mono (A' := 54 / 10 ^ 1) (δ' := 983 / 10 ^ 15) (by norm_num) (by norm_num)
  have g13 := (g12.qs (σ := _) (m := 1) le_rfl g12.mag ((b5_lo hL h).trans (le_abs_self _))).mono (M₁ := 54 / 10 ^ 1) (ε₁ := 983 / 10 ^ 15) (η₁ := 0) (by norm_num) (by norm_num) (by norm_num)
  have g14 := (g7.rmul g13).mono (M₁ := 540000) (ε₁ := 499 / 10 ^ 14) (η₁ := 195 / 10 ^ 47) (by norm_num) (by norm_num) (by norm_num)
  exact g14

theorem posq_lo (hL : Libm.Faithful) (h : Elements o ρ) : 107 / 10 ^ 2 ≤ |posq ρ| := by
  have e : posq ρ = ao ρ * ome ρ * (ao ρ * ome ρ) := rfl
  have e2 : ao ρ * ome ρ = rp ρ * (1 + ρ.xecco) := by
    rw [ome_eq, show rp ρ = ao ρ * ((1.0 : ℝ) - ρ.xecco) from rfl]; norm_num; ring
  have h1 : 1 + 240 / 6378.137 ≤ ao ρ * ome ρ := by
    rw [e2]
    have := h.perigee
    have := mul_nonneg (le_trans (by norm_num) this : (0:ℝ) ≤ rp ρ) h.ecc_lo
    linarith
  refine le_trans ?_ (le_abs_self _)
  rw [e]
  exact le_trans (by norm_num) (mul_le_mul h1 h1 (by norm_num) (le_trans (by norm_num) h1))
theorem pinv_bounds (hL : Libm.Faithful) (h : Elements o ρ) : 1 / 10 ^ 1 ≤ |pinv ρ| := by
  have e : pinv ρ = (1.0 : ℝ) / posq ρ := rfl
  have h1 := posq_lo hL h
  have p : 0 < |posq ρ| := lt_of_lt_of_le (by norm_num) h1
  have h2 : |posq ρ| ≤ 4 := by
    have a0 : 0 ≤ ao ρ := le_trans (by norm_num) (ao_bounds0 hL h).1
    have : |posq ρ| = ao ρ * ome ρ * (ao ρ * ome ρ) := abs_of_nonneg (mul_self_nonneg _)
    have b : ao ρ * ome ρ ≤ 192 / 10 ^ 2 :=
      (mul_le_mul (ao_bounds0 hL h).2 (ome_hi h.toRanges) (le_trans (by norm_num) (ome_lo h.toRanges)) (by norm_num)).trans (by norm_num)
    have b0 : 0 ≤ ao ρ * ome ρ := mul_nonneg a0 (le_trans (by norm_num) (ome_lo h.toRanges))
    rw [this]
    exact (mul_le_mul b b b0 (by norm_num)).trans (by norm_num)
  rw [e, abs_div, le_div_iff₀ p]
  norm_num [abs_of_pos] at *; linarith

theorem i_pinv (hL : Libm.Faithful) (h : Elements o ρ) : QS (pinv o) (pinv ρ) (|pinv ρ|) (935 / 10 ^ 3) (108 / 10 ^ 16) (0) := by
  have g1 := ((i_ao hL h).rmul (i_omeR h)).mono (M₁ := 192 / 10 ^ 2) (ε₁ := 51 / 10 ^ 16) (η₁ := 876 / 10 ^ 49) (by norm_num) (by norm_num) (by norm_num)
  have g2 := (Q.int 10 true 1 1 (by norm_num)).qs (σ := _) (M := 1) (m := 1) le_rfl (by norm_num) (by norm_num)
  have g3 := (g2).mono (M₁ := 1) (ε₁ := 0) (η₁ := 0) (by norm_num) (by norm_num) (by norm_num)
  have g4 := (g1.rmul g1).mono (M₁ := 369 / 10 ^ 2) (ε₁ := 104 / 10 ^ 16) (η₁ := 424 / 10 ^ 48) (by norm_num) (by norm_num) (by norm_num)
  have g5 := (g4.absorb (107 / 10 ^ 2) (posq_lo hL h)).mono (M₁ := 369 / 10 ^ 2) (ε₁ := 105 / 10 ^ 16) (η₁ := 0) (by norm_num) (by norm_num) (by norm_num)
  have g6 := (g3.rdiv g5 (107 / 10 ^ 2) (posq_lo hL h)).mono (M₁ := 935 / 10 ^ 3) (ε₁ := 107 / 10 ^ 16) (η₁ := 876 / 10 ^ 49) (by norm_num) (by norm_num) (by norm_num)
  have g7 := (g6.absorb (1 / 10 ^ 1) (pinv_bounds hL h)).mono (M₁ := 935 / 10 ^ 3) (ε₁ := 108 / 10 ^ 16) (η₁ := 0) (by norm_num) (by norm_num) (by norm_num)
  exact g7

theorem i_temp1 (hL : Libm.Faithful) (h : Elements o ρ) : QS (temp1 o) (temp1 ρ) (|temp1 ρ|) (122 / 10 ^ 6) (125 / 10 ^ 16) (101 / 10 ^ 48) := by
  have g1 := Q.dyadic 15 true 1 3 1 (15 / 10 ^ 1) (by norm_num) (by norm_num)
  have g2 := (g1.qs (σ := _) (m := 15 / 10 ^ 1) le_rfl g1.mag (by norm_num [abs_of_pos])).mono (M₁ := 15 / 10 ^ 1) (ε₁ := 0) (η₁ := 0) (by norm_num) (by norm_num) (by norm_num)
  have g3 := (q_J2.qs (σ := _) (m := 108 / 10 ^ 5) le_rfl q_J2.mag J2_ge).mono (M₁ := 109 / 10 ^ 5) (ε₁ := 113 / 10 ^ 18) (η₁ := 0) (by norm_num) (by norm_num) (by norm_num)
  have g4 := (g2.rmul g3).mono (M₁ := 164 / 10 ^ 5) (ε₁ := 225 / 10 ^ 18) (η₁ := 876 / 10 ^ 49) (by norm_num) (by norm_num) (by norm_num)
  have g5 := (g4.rmul (i_pinv hL h)).mono (M₁ := 154 / 10 ^ 5) (ε₁ := 112 / 10 ^ 16) (η₁ := 17 / 10 ^ 47) (by norm_num) (by norm_num) (by norm_num)
  have g6 := (g5.rmul (i_no hL h)).mono (M₁ := 122 / 10 ^ 6) (ε₁ := 125 / 10 ^ 16) (η₁ := 101 / 10 ^ 48) (by norm_num) (by norm_num) (by norm_num)
  exact g6

theorem i_temp2 (hL : Libm.Faithful) (h : Elements o ρ) : Q (temp2 o) (temp2 ρ) (622 / 10 ^ 10) (148 / 10 ^ 23) := by
  have g1 := Q.dyadic 5 true 1 1 1 (5 / 10 ^ 1) (by norm_num) (by norm_num)
  have g2 := ((i_temp1 hL h).q (i_temp1 hL h).top).mono (A' := 122 / 10 ^ 6) (δ' := 153 / 10 ^ 20) (by norm_num) (by norm_num)
  have g3 := ((i_pinv hL h).q (i_pinv hL h).top).mono (A' := 935 / 10 ^ 3) (δ' := 101 / 10 ^ 16) (by norm_num) (by norm_num)
  have g4 := (g1.mul g2).mono (A' := 61 / 10 ^ 6) (δ' := 772 / 10 ^ 21) (by norm_num) (by norm_num)
  have g5 := (g4.mul q_J2).mono (A' := 665 / 10 ^ 10) (δ' := 857 / 10 ^ 24) (by norm_num) (by norm_num)
  have g6 := (g5.mul g3).mono (A' := 622 / 10 ^ 10) (δ' := 148 / 10 ^ 23) (by norm_num) (by norm_num)
  exact g6

theorem i_temp3 (hL : Libm.Faithful) (h : Elements o ρ) : Q (temp3 o) (temp3 ρ) (525 / 10 ^ 10) (123 / 10 ^ 23) := by
  have g1 := Q.dyadic 46875 true 5 15 5 (46875 / 10 ^ 5) (by norm_num) (by norm_num)
  have g2 := (Q.sci 161098761 true 14 (162 / 10 ^ 8) (by norm_num)).mono (A' := 162 / 10 ^ 8) (δ' := 18 / 10 ^ 23) (by norm_num) (by norm_num)
  have g3 := (g2.neg).mono (A' := 162 / 10 ^ 8) (δ' := 18 / 10 ^ 23) (by norm_num) (by norm_num)
  have g4 := ((i_pinv hL h).q (i_pinv hL h).top).mono (A' := 935 / 10 ^ 3) (δ' := 101 / 10 ^ 16) (by norm_num) (by norm_num)
  have g5 := ((i_no hL h).q (i_no hL h).top).mono (A' := 788 / 10 ^ 4) (δ' := 899 / 10 ^ 19) (by norm_num) (by norm_num)
  have g6 := (g1.neg).mono (A' := 469 / 10 ^ 3) (δ' := 0) (by norm_num) (by norm_num)
  have g7 := (g6.mul g3).mono (A' := 76 / 10 ^ 8) (δ' := 169 / 10 ^ 24) (by norm_num) (by norm_num)
  have g8 := (g7.mul g4).mono (A' := 711 / 10 ^ 9) (δ' := 792 / 10 ^ 23) (by norm_num) (by norm_num)
  have g9 := (g8.mul g4).mono (A' := 665 / 10 ^ 9) (δ' := 147 / 10 ^ 22) (by norm_num) (by norm_num)
  have g10 := (g9.mul g5).mono (A' := 525 / 10 ^ 10) (δ' := 123 / 10 ^ 23) (by norm_num) (by norm_num)
  exact g10

theorem i_ci4 (hL : Libm.Faithful) (h : Elements o ρ) : Q (ci4 o) (ci4 ρ) (1) (228 / 10 ^ 16) := by
  have g1 := ((i_ci2 hL h).mul (i_ci2 hL h)).mono (A' := 1) (δ' := 228 / 10 ^ 16) (by norm_num) (by norm_num)
  exact g1

theorem i_mdot (hL : Libm.Faithful) (h : Elements o ρ) : Q (mdot o) (mdot ρ) (791 / 10 ^ 4) (115 / 10 ^ 18) := by
  have g1 := Q.dyadic 5 true 1 1 1 (5 / 10 ^ 1) (by norm_num) (by norm_num)
  have g2 := Q.dyadic 625 true 4 1 4 (625 / 10 ^ 4) (by norm_num) (by norm_num)
  have g3 := ((i_temp1 hL h).q (i_temp1 hL h).top).mono (A' := 122 / 10 ^ 6) (δ' := 153 / 10 ^ 20) (by norm_num) (by norm_num)
  have g4 := ((i_no hL h).q (i_no hL h).top).mono (A' := 788 / 10 ^ 4) (δ' := 899 / 10 ^ 19) (by norm_num) (by norm_num)
  have g5 := (g1.mul g3).mono (A' := 61 / 10 ^ 6) (δ' := 772 / 10 ^ 21) (by norm_num) (by norm_num)
  have g6 := (g5.mul (i_rt h)).mono (A' := 61 / 10 ^ 6) (δ' := 801 / 10 ^ 21) (by norm_num) (by norm_num)
  have g7 := (g6.mul (i_con41 hL h)).mono (A' := 122 / 10 ^ 6) (δ' := 656 / 10 ^ 20) (by norm_num) (by norm_num)
  have g8 := (g4.add g7).mono (A' := 79 / 10 ^ 3) (δ' := 106 / 10 ^ 18) (by norm_num) (by norm_num)
  have g9 := (g2.mul (i_temp2 hL h)).mono (A' := 389 / 10 ^ 11) (δ' := 93 / 10 ^ 24) (by norm_num) (by norm_num)
  have g10 := (g9.mul (i_rt h)).mono (A' := 389 / 10 ^ 11) (δ' := 949 / 10 ^ 25) (by norm_num) (by norm_num)
  have g11 := (Q.int 130 true 1 13 (by norm_num)).mono (A' := 13) (δ' := 0) (by norm_num) le_rfl
  have g12 := (Q.int 780 true 1 78 (by norm_num)).mono (A' := 78) (δ' := 0) (by norm_num) le_rfl
  have g13 := (Q.int 1370 true 1 137 (by norm_num)).mono (A' := 137) (δ' := 0) (by norm_num) le_rfl
  have g14 := (g12.mul (i_ci2 hL h)).mono (A' := 78) (δ' := 891 / 10 ^ 15) (by norm_num) (by norm_num)
  have g15 := (g11.sub g14).mono (A' := 91) (δ' := 902 / 10 ^ 15) (by norm_num) (by norm_num)
  have g16 := (g13.mul (i_ci4 hL h)).mono (A' := 137) (δ' := 314 / 10 ^ 14) (by norm_num) (by norm_num)
  have g17 := (g15.add g16).mono (A' := 228) (δ' := 407 / 10 ^ 14) (by norm_num) (by norm_num)
  have g18 := (g10.mul g17).mono (A' := 887 / 10 ^ 9) (δ' := 376 / 10 ^ 22) (by norm_num) (by norm_num)
  have g19 := (g8.add g18).mono (A' := 791 / 10 ^ 4) (δ' := 115 / 10 ^ 18) (by norm_num) (by norm_num)
  exact g19

theorem i_argpdot (hL : Libm.Faithful) (h : Elements o ρ) : Q (argpdot o) (argpdot ρ) (252 / 10 ^ 6) (697 / 10 ^ 20) := by
  have g1 := Q.dyadic 5 true 1 1 1 (5 / 10 ^ 1) (by norm_num) (by norm_num)
  have g2 := Q.dyadic 625 true 4 1 4 (625 / 10 ^ 4) (by norm_num) (by norm_num)
  have g3 := ((i_temp1 hL h).q (i_temp1 hL h).top).mono (A' := 122 / 10 ^ 6) (δ' := 153 / 10 ^ 20) (by norm_num) (by norm_num)
  have g4 := (g1.neg).mono (A' := 5 / 10 ^ 1) (δ' := 0) (by norm_num) (by norm_num)
  have g5 := (g4.mul g3).mono (A' := 61 / 10 ^ 6) (δ' := 772 / 10 ^ 21) (by norm_num) (by norm_num)
  have g6 := (g5.mul (i_con42 hL h)).mono (A' := 244 / 10 ^ 6) (δ' := 663 / 10 ^ 20) (by norm_num) (by norm_num)
  have g7 := (g2.mul (i_temp2 hL h)).mono (A' := 389 / 10 ^ 11) (δ' := 93 / 10 ^ 24) (by norm_num) (by norm_num)
  have g8 := (Q.int 70 true 1 7 (by norm_num)).mono (A' := 7) (δ' := 0) (by norm_num) le_rfl
  have g9 := (Q.int 1140 true 1 114 (by norm_num)).mono (A' := 114) (δ' := 0) (by norm_num) le_rfl
  have g10 := (Q.int 3950 true 1 395 (by norm_num)).mono (A' := 395) (δ' := 0) (by norm_num) le_rfl
  have g11 := (g9.mul (i_ci2 hL h)).mono (A' := 114) (δ' := 131 / 10 ^ 14) (by norm_num) (by norm_num)
  have g12 := (g8.sub g11).mono (A' := 121) (δ' := 133 / 10 ^ 14) (by norm_num) (by norm_num)
  have g13 := (g10.mul (i_ci4 hL h)).mono (A' := 395) (δ' := 905 / 10 ^ 14) (by norm_num) (by norm_num)
  have g14 := (g12.add g13).mono (A' := 516) (δ' := 105 / 10 ^ 13) (by norm_num) (by norm_num)
  have g15 := (g7.mul g14).mono (A' := 201 / 10 ^ 8) (δ' := 891 / 10 ^ 22) (by norm_num) (by norm_num)
  have g16 := (g6.add g15).mono (A' := 247 / 10 ^ 6) (δ' := 675 / 10 ^ 20) (by norm_num) (by norm_num)
  have g17 := (Q.int 30 true 1 3 (by norm_num)).mono (A' := 3) (δ' := 0) (by norm_num) le_rfl
  have g18 := (Q.int 360 true 1 36 (by norm_num)).mono (A' := 36) (δ' := 0) (by norm_num) le_rfl
  have g19 := (Q.int 490 true 1 49 (by norm_num)).mono (A' := 49) (δ' := 0) (by norm_num) le_rfl
  have g20 := (g18.mul (i_ci2 hL h)).mono (A' := 36) (δ' := 411 / 10 ^ 15) (by norm_num) (by norm_num)
  have g21 := (g17.sub g20).mono (A' := 39) (δ' := 416 / 10 ^ 15) (by norm_num) (by norm_num)
  have g22 := (g19.mul (i_ci4 hL h)).mono (A' := 49) (δ' := 113 / 10 ^ 14) (by norm_num) (by norm_num)
  have g23 := (g21.add g22).mono (A' := 88) (δ' := 156 / 10 ^ 14) (by norm_num) (by norm_num)
  have g24 := ((i_temp3 hL h).mul g23).mono (A' := 462 / 10 ^ 8) (δ' := 191 / 10 ^ 21) (by norm_num) (by norm_num)
  have g25 := (g16.add g24).mono (A' := 252 / 10 ^ 6) (δ' := 697 / 10 ^ 20) (by norm_num) (by norm_num)
  exact g25

theorem i_xhdot1 (hL : Libm.Faithful) (h : Elements o ρ) : QS (xhdot1 o) (xhdot1 ρ) (|-temp1 ρ| * 1) (122 / 10 ^ 6) (182 / 10 ^ 16) (189 / 10 ^ 48) := by
  have g1 := ((i_ci hL h).qs (σ := 1) (M := 1) (m := 1) (i_ci hL h).mag le_rfl le_rfl).mono (M₁ := 1) (ε₁ := 556 / 10 ^ 17) (η₁ := 0) (by norm_num) (by norm_num) (by norm_num)
  have g2 := ((i_temp1 hL h).rneg).mono (M₁ := 122 / 10 ^ 6) (ε₁ := 125 / 10 ^ 16) (η₁ := 101 / 10 ^ 48) (by norm_num) (by norm_num) (by norm_num)
  have g3 := (g2.mul g1).mono (M₁ := 122 / 10 ^ 6) (ε₁ := 182 / 10 ^ 16) (η₁ := 189 / 10 ^ 48) (by norm_num) (by norm_num) (by norm_num)
  exact g3

theorem i_nodedot (hL : Libm.Faithful) (h : Elements o ρ) : Q (nodedot o) (nodedot ρ) (124 / 10 ^ 6) (232 / 10 ^ 20) := by
  have g1 := Q.dyadic 5 true 1 1 1 (5 / 10 ^ 1) (by norm_num) (by norm_num)
  have g2 := ((i_temp1 hL h).q (i_temp1 hL h).top).mono (A' := 122 / 10 ^ 6) (δ' := 153 / 10 ^ 20) (by norm_num) (by norm_num)
  have g3 := (g2.neg).mono (A' := 122 / 10 ^ 6) (δ' := 153 / 10 ^ 20) (by norm_num) (by norm_num)
  have g4 := (g3.mul (i_ci hL h)).mono (A' := 122 / 10 ^ 6) (δ' := 223 / 10 ^ 20) (by norm_num) (by norm_num)
  have g5 := (Q.int 40 true 1 4 (by norm_num)).mono (A' := 4) (δ' := 0) (by norm_num) le_rfl
  have g6 := (Q.int 190 true 1 19 (by norm_num)).mono (A' := 19) (δ' := 0) (by norm_num) le_rfl
  have g7 := (Q.int 20 true 1 2 (by norm_num)).mono (A' := 2) (δ' := 0) (by norm_num) le_rfl
  have g8 := (Q.int 30 true 1 3 (by norm_num)).mono (A' := 3) (δ' := 0) (by norm_num) le_rfl
  have g9 := (Q.int 70 true 1 7 (by norm_num)).mono (A' := 7) (δ' := 0) (by norm_num) le_rfl
  have g10 := (g1.mul (i_temp2 hL h)).mono (A' := 311 / 10 ^ 10) (δ' := 744 / 10 ^ 24) (by norm_num) (by norm_num)
  have g11 := (g6.mul (i_ci2 hL h)).mono (A' := 19) (δ' := 217 / 10 ^ 15) (by norm_num) (by norm_num)
  have g12 := (g5.sub g11).mono (A' := 23) (δ' := 22 / 10 ^ 14) (by norm_num) (by norm_num)
  have g13 := (g10.mul g12).mono (A' := 716 / 10 ^ 9) (δ' := 241 / 10 ^ 22) (by norm_num) (by norm_num)
  have g14 := (g7.mul (i_temp3 hL h)).mono (A' := 105 / 10 ^ 9) (δ' := 248 / 10 ^ 23) (by norm_num) (by norm_num)
  have g15 := (g9.mul (i_ci2 hL h)).mono (A' := 7) (δ' := 799 / 10 ^ 16) (by norm_num) (by norm_num)
  have g16 := (g8.sub g15).mono (A' := 10) (δ' := 811 / 10 ^ 16) (by norm_num) (by norm_num)
  have g17 := (g14.mul g16).mono (A' := 105 / 10 ^ 8) (δ' := 335 / 10 ^ 22) (by norm_num) (by norm_num)
  have g18 := (g13.add g17).mono (A' := 177 / 10 ^ 8) (δ' := 578 / 10 ^ 22) (by norm_num) (by norm_num)
  have g19 := (g18.mul (i_ci hL h)).mono (A' := 177 / 10 ^ 8) (δ' := 679 / 10 ^ 22) (by norm_num) (by norm_num)
  have g20 := (g4.add g19).mono (A' := 124 / 10 ^ 6) (δ' := 232 / 10 ^ 20) (by norm_num) (by norm_num)
  exact g20

theorem i_nodecf (hL : Libm.Faithful) (h : Elements o ρ) : QS (nodecf o) (nodecf ρ) (|3.5 * ome ρ| * (|-temp1 ρ| * 1) * |cc1 ρ|) (427 / 10 ^ 8) (769 / 10 ^ 14) (997 / 10 ^ 48) := by
  have g1 := Q.dyadic 35 true 1 7 1 (35 / 10 ^ 1) (by norm_num) (by norm_num)
  have g2 := (g1.qs (σ := _) (m := 35 / 10 ^ 1) le_rfl g1.mag (by norm_num [abs_of_pos])).mono (M₁ := 35 / 10 ^ 1) (ε₁ := 0) (η₁ := 0) (by norm_num) (by norm_num) (by norm_num)
  have g3 := (g2.rmul (i_omeR h)).mono (M₁ := 35 / 10 ^ 1) (ε₁ := 389 / 10 ^ 18) (η₁ := 876 / 10 ^ 49) (by norm_num) (by norm_num) (by norm_num)
  have g4 := (g3.mul (i_xhdot1 hL h)).mono (M₁ := 427 / 10 ^ 6) (ε₁ := 188 / 10 ^ 16) (η₁ := 75 / 10 ^ 47) (by norm_num) (by norm_num) (by norm_num)
  have g5 := (g4.mul (i_cc1 hL h)).mono (M₁ := 427 / 10 ^ 8) (ε₁ := 769 / 10 ^ 14) (η₁ := 997 / 10 ^ 48) (by norm_num) (by norm_num) (by norm_num)
  exact g5

theorem i_t2cof (hL : Libm.Faithful) (h : Elements o ρ) : QS (t2cof o) (t2cof ρ) (|t2cof ρ|) (15 / 10 ^ 3) (768 / 10 ^ 14) (317 / 10 ^ 44) := by
  have g1 := Q.dyadic 15 true 1 3 1 (15 / 10 ^ 1) (by norm_num) (by norm_num)
  have g2 := (g1.qs (σ := _) (m := 15 / 10 ^ 1) le_rfl g1.mag (by norm_num [abs_of_pos])).mono (M₁ := 15 / 10 ^ 1) (ε₁ := 0) (η₁ := 0) (by norm_num) (by norm_num) (by norm_num)
  have g3 := (g2.rmul (i_cc1 hL h)).mono (M₁ := 15 / 10 ^ 3) (ε₁ := 768 / 10 ^ 14) (η₁ := 317 / 10 ^ 44) (by norm_num) (by norm_num) (by norm_num)
  exact g3

omit [Libm] in
theorem J3_ge : 23 / 10 ^ 4 ≤ |(J3OJ2 : ℝ)| := by
  have : (J3OJ2 : ℝ) = -0.00000253215306 / 0.00108262998905 := rfl
  rw [this, abs_of_neg (by norm_num)]; norm_num
/-- the test on the eccentricity -/
theorem ecc_test (h : Elements o ρ) : (o.xecco >. (1.0e-4 : F64)) = (ρ.xecco >. (1.0e-4 : ℝ)) := by
  have q := (in_ecc h).q (in_ecc h).top
  have l : Q (1.0e-4 : F64) (1.0e-4 : ℝ) (1 / 10 ^ 4) (2 / 10 ^ 20) := (Q.sci 10 true 5 (1 / 10 ^ 4) (by norm_num)).mono le_rfl (by norm_num)
  obtain ⟨q1, q2⟩ := abs_le.mp q.err
  obtain ⟨l1, l2⟩ := abs_le.mp l.err
  rw [Bool.eq_iff_iff, real_flt, decide_eq_true_eq]
  refine Iff.trans (flt_fin l.fin q.fin) ?_
  rcases h.ecc_side with hs | hs
  · constructor <;> intro h1 <;> exfalso <;> norm_num at * <;> linarith
  · constructor <;> intro h1 <;> norm_num at * <;> linarith

/-- the scale of `cc3` -/
noncomputable def cc3s (ρ : SGP4InitOptions ℝ) : ℝ := if ρ.xecco >. (1.0e-4 : ℝ) then |-2.0 * coef ρ * tsi ρ * J3OJ2 * no ρ| * 1 / |ρ.xecco| else 0
theorem i_cc3 (hL : Libm.Faithful) (h : Elements o ρ) : QS (cc3 o) (cc3 ρ) (cc3s ρ) (804 / 10 ^ 3) (112 / 10 ^ 14) (367 / 10 ^ 44) := by
  unfold cc3 cc3s
  rw [ecc_test h]
  by_cases hc : (ρ.xecco >. (1.0e-4 : ℝ)) = true
  · rw [if_pos hc, if_pos hc, if_pos hc]
    have hge : 1 / 10 ^ 4 ≤ ρ.xecco := by
      rw [real_flt, decide_eq_true_eq] at hc
      norm_num at *; linarith
    have g1 := (Q.int 20 true 1 2 (by norm_num)).qs (σ := _) (M := 2) (m := 2) le_rfl (by norm_num) (by norm_num)
    have g2 := (g1).mono (M₁ := 2) (ε₁ := 0) (η₁ := 0) (by norm_num) (by norm_num) (by norm_num)
    have g3 := (q_J3OJ2.qs (σ := _) (m := 23 / 10 ^ 4) le_rfl q_J3OJ2.mag J3_ge).mono (M₁ := 24 / 10 ^ 4) (ε₁ := 348 / 10 ^ 18) (η₁ := 0) (by norm_num) (by norm_num) (by norm_num)
    have g4 := ((i_si hL h).qs (σ := 1) (M := 1) (m := 1) (i_si hL h).mag le_rfl le_rfl).mono (M₁ := 1) (ε₁ := 556 / 10 ^ 17) (η₁ := 0) (by norm_num) (by norm_num) (by norm_num)
    have g5 := (g2.rneg).mono (M₁ := 2) (ε₁ := 0) (η₁ := 0) (by norm_num) (by norm_num) (by norm_num)
    have g6 := (g5.rmul (i_coef hL h)).mono (M₁ := 104 / 10 ^ 4) (ε₁ := 859 / 10 ^ 15) (η₁ := 876 / 10 ^ 49) (by norm_num) (by norm_num) (by norm_num)
    have g7 := (g6.rmul (i_tsi hL h)).mono (M₁ := 422 / 10 ^ 3) (ε₁ := 108 / 10 ^ 14) (η₁ := 364 / 10 ^ 47) (by norm_num) (by norm_num) (by norm_num)
    have g8 := (g7.rmul g3).mono (M₁ := 102 / 10 ^ 5) (ε₁ := 109 / 10 ^ 14) (η₁ := 964 / 10 ^ 49) (by norm_num) (by norm_num) (by norm_num)
    have g9 := (g8.rmul (i_no hL h)).mono (M₁ := 804 / 10 ^ 7) (ε₁ := 11 / 10 ^ 13) (η₁ := 952 / 10 ^ 49) (by norm_num) (by norm_num) (by norm_num)
    have g10 := (g9.mul g4).mono (M₁ := 804 / 10 ^ 7) (ε₁ := 111 / 10 ^ 14) (η₁ := 183 / 10 ^ 48) (by norm_num) (by norm_num) (by norm_num)
    have g11 := ((in_ecc h).absorb (1 / 10 ^ 4) (hge.trans (le_abs_self _))).mono (M₁ := 44 / 10 ^ 2) (ε₁ := 231 / 10 ^ 18) (η₁ := 0) (by norm_num) (by norm_num) (by norm_num)
    have g12 := (g10.div g11 (1 / 10 ^ 4) (hge.trans (le_abs_self _))).mono (M₁ := 804 / 10 ^ 3) (ε₁ := 112 / 10 ^ 14) (η₁ := 367 / 10 ^ 44) (by norm_num) (by norm_num) (by norm_num)
    exact g12
  · rw [if_neg hc, if_neg hc, if_neg hc]
    have z := Q.int 0 true 1 0 (by norm_num)
    refine ⟨z.fin, by norm_num, by norm_num, z.err.trans (by norm_num), by norm_num, by norm_num⟩

theorem i_omgcof (hL : Libm.Faithful) (h : Elements o ρ) : QS (omgcof o) (omgcof ρ) (|ρ.xbstar| * cc3s ρ * 1) (804 / 10 ^ 3) (114 / 10 ^ 14) (369 / 10 ^ 44) := by
  have g1 := ((in_argp h).angle).mono (A' := 631 / 10 ^ 2) (δ' := 4 / 10 ^ 15) (by norm_num) (by norm_num)
  have g2 := (g1.cos hL).mono (A' := 1) (δ' := 756 / 10 ^ 17) (by norm_num) (by norm_num)
  have g3 := (g2.qs (σ := 1) (M := 1) (m := 1) g2.mag le_rfl le_rfl).mono (M₁ := 1) (ε₁ := 756 / 10 ^ 17) (η₁ := 0) (by norm_num) (by norm_num) (by norm_num)
  have g4 := ((in_bstar h).mul (i_cc3 hL h)).mono (M₁ := 804 / 10 ^ 3) (ε₁ := 113 / 10 ^ 14) (η₁ := 368 / 10 ^ 44) (by norm_num) (by norm_num) (by norm_num)
  have g5 := (g4.mul g3).mono (M₁ := 804 / 10 ^ 3) (ε₁ := 114 / 10 ^ 14) (η₁ := 369 / 10 ^ 44) (by norm_num) (by norm_num) (by norm_num)
  exact g5

theorem eeta_lo (hL : Libm.Faithful) (h : Elements o ρ) (hge : 1 / 10 ^ 4 ≤ ρ.xecco) : 1 / 10 ^ 8 ≤ |eeta ρ| := by
  have e : eeta ρ = ρ.xecco * eta ρ := rfl
  have h1 : ρ.xecco ≤ eta ρ := by
    rw [eta_eq]
    have := sens_ge hL h
    nlinarith [h.ecc_lo]
  refine le_trans ?_ (le_abs_self _)
  rw [e]
  exact le_trans (by norm_num) (mul_le_mul hge (hge.trans h1) (by norm_num) h.ecc_lo)

theorem i_xmcof (hL : Libm.Faithful) (h : Elements o ρ) : QS (xmcof o) (xmcof ρ) |xmcof ρ| (348000) (13 / 10 ^ 13) (353 / 10 ^ 40) := by
  unfold xmcof
  rw [ecc_test h]
  by_cases hc : (ρ.xecco >. (1.0e-4 : ℝ)) = true
  · rw [if_pos hc, if_pos hc]
    have hge : 1 / 10 ^ 4 ≤ ρ.xecco := by
      rw [real_flt, decide_eq_true_eq] at hc
      norm_num at *; linarith
    have g1 := (q_x2o3.qs (σ := _) (m := 66 / 10 ^ 2) le_rfl q_x2o3.mag (by show _ ≤ |(2.0 : ℝ) / 3.0|; rw [abs_of_pos (by norm_num)]; norm_num)).mono (M₁ := 67 / 10 ^ 2) (ε₁ := 114 / 10 ^ 18) (η₁ := 0) (by norm_num) (by norm_num) (by norm_num)
    have g2 := (g1.rneg).mono (M₁ := 67 / 10 ^ 2) (ε₁ := 114 / 10 ^ 18) (η₁ := 0) (by norm_num) (by norm_num) (by norm_num)
    have g3 := (g2.rmul (i_coef hL h)).mono (M₁ := 348 / 10 ^ 5) (ε₁ := 859 / 10 ^ 15) (η₁ := 876 / 10 ^ 49) (by norm_num) (by norm_num) (by norm_num)
    have g4 := (g3.rmul (in_bstar h)).mono (M₁ := 348 / 10 ^ 5) (ε₁ := 86 / 10 ^ 14) (η₁ := 176 / 10 ^ 48) (by norm_num) (by norm_num) (by norm_num)
    have g5 := ((i_eetaR hL h).absorb (1 / 10 ^ 8) (eeta_lo hL h hge)).mono (M₁ := 44 / 10 ^ 2) (ε₁ := 435 / 10 ^ 15) (η₁ := 0) (by norm_num) (by norm_num) (by norm_num)
    have g6 := (g4.rdiv g5 (1 / 10 ^ 8) (eeta_lo hL h hge)).mono (M₁ := 348000) (ε₁ := 13 / 10 ^ 13) (η₁ := 353 / 10 ^ 40) (by norm_num) (by norm_num) (by norm_num)
    exact g6
  · rw [if_neg hc, if_neg hc]
    have z := Q.int 0 true 1 0 (by norm_num)
    refine ⟨z.fin, le_rfl, by norm_num, z.err.trans (by norm_num), by norm_num, by norm_num⟩

theorem i_delmo (hL : Libm.Faithful) (h : Elements o ρ) : Q (delmo o) (delmo ρ) (8) (214 / 10 ^ 14) := by
  have g1 := (Q.int 10 true 1 1 (by norm_num)).mono (A' := 1) (δ' := 0) (by norm_num) le_rfl
  have g2 := ((in_anom h).angle).mono (A' := 631 / 10 ^ 2) (δ' := 4 / 10 ^ 15) (by norm_num) (by norm_num)
  have g3 := (g2.cos hL).mono (A' := 1) (δ' := 756 / 10 ^ 17) (by norm_num) (by norm_num)
  have g4 := ((i_eta hL h).mul g3).mono (A' := 1) (δ' := 177 / 10 ^ 15) (by norm_num) (by norm_num)
  have g5 := (g1.add g4).mono (A' := 2) (δ' := 178 / 10 ^ 15) (by norm_num) (by norm_num)
  have g6 := (g5.mul g5).mono (A' := 4) (δ' := 713 / 10 ^ 15) (by norm_num) (by norm_num)
  have g7 := (g6.mul g5).mono (A' := 8) (δ' := 214 / 10 ^ 14) (by norm_num) (by norm_num)
  exact g7

theorem i_sinmao (hL : Libm.Faithful) (h : Elements o ρ) : Q (sinmao o) (sinmao ρ) (1) (756 / 10 ^ 17) := by
  have g1 := ((in_anom h).angle).mono (A' := 631 / 10 ^ 2) (δ' := 4 / 10 ^ 15) (by norm_num) (by norm_num)
  have g2 := (g1.sin hL).mono (A' := 1) (δ' := 756 / 10 ^ 17) (by norm_num) (by norm_num)
  exact g2

theorem i_aycof (hL : Libm.Faithful) (h : Elements o ρ) : Q (aycofOf (si o)) (aycofOf (si ρ)) (12 / 10 ^ 4) (734 / 10 ^ 20) := by
  have g1 := Q.dyadic 5 true 1 1 1 (5 / 10 ^ 1) (by norm_num) (by norm_num)
  have g2 := (g1.neg).mono (A' := 5 / 10 ^ 1) (δ' := 0) (by norm_num) (by norm_num)
  have g3 := (g2.mul q_J3OJ2).mono (A' := 12 / 10 ^ 4) (δ' := 533 / 10 ^ 21) (by norm_num) (by norm_num)
  have g4 := (g3.mul (i_si hL h)).mono (A' := 12 / 10 ^ 4) (δ' := 734 / 10 ^ 20) (by norm_num) (by norm_num)
  exact g4

theorem xl_test (hL : Libm.Faithful) (h : Elements o ρ) :
    (Arith.abs (ci o + 1.0) >. (1.5e-12 : F64)) = true ∧ (Arith.abs (ci ρ + 1.0) >. (1.5e-12 : ℝ)) = true := by
  have hc := h.incl_cos
  have e : ci ρ = Real.cos ρ.xinclo := rfl
  have a1 : (1 / 10 ^ 2 : ℝ) ≤ |ci ρ + 1.0| := by
    refine le_trans ?_ (le_abs_self _)
    rw [e]; norm_num at *; linarith
  constructor
  · have g := (((i_ci hL h).add (Q.int 10 true 1 1 (by norm_num))).abs).mono (A' := 2) (δ' := 1 / 10 ^ 14) (by norm_num) (by norm_num)
    have l := (Q.sci 15 true 13 (2 / 10 ^ 12) (by norm_num)).mono (A' := 1) (δ' := 1 / 10 ^ 20) (by norm_num) (by norm_num)
    refine (flt_fin l.fin g.fin).mpr ?_
    have g1 := (abs_le.mp g.err).1
    have l2 := (abs_le.mp l.err).2
    norm_num at * <;> linarith
  · rw [real_flt, decide_eq_true_eq]
    show (1.5e-12 : ℝ) < |ci ρ + 1.0|
    norm_num at *; linarith
theorem i_xlcof (hL : Libm.Faithful) (h : Elements o ρ) : Q (xlcofOf (si o) (ci o)) (xlcofOf (si ρ) (ci ρ)) (5 / 10 ^ 1) (295 / 10 ^ 15) := by
  unfold xlcofOf
  rw [if_pos (xl_test hL h).1, if_pos (xl_test hL h).2]
  have g1 := Q.dyadic 25 true 2 1 2 (25 / 10 ^ 2) (by norm_num) (by norm_num)
  have g2 := (Q.int 30 true 1 3 (by norm_num)).mono (A' := 3) (δ' := 0) (by norm_num) le_rfl
  have g3 := (Q.int 50 true 1 5 (by norm_num)).mono (A' := 5) (δ' := 0) (by norm_num) le_rfl
  have g4 := (Q.int 10 true 1 1 (by norm_num)).mono (A' := 1) (δ' := 0) (by norm_num) le_rfl
  have g5 := (g1.neg).mono (A' := 25 / 10 ^ 2) (δ' := 0) (by norm_num) (by norm_num)
  have g6 := (g5.mul q_J3OJ2).mono (A' := 6 / 10 ^ 4) (δ' := 267 / 10 ^ 21) (by norm_num) (by norm_num)
  have g7 := (g6.mul (i_si hL h)).mono (A' := 6 / 10 ^ 4) (δ' := 367 / 10 ^ 20) (by norm_num) (by norm_num)
  have g8 := (g3.mul (i_ci hL h)).mono (A' := 5) (δ' := 284 / 10 ^ 16) (by norm_num) (by norm_num)
  have g9 := (g2.add g8).mono (A' := 8) (δ' := 293 / 10 ^ 16) (by norm_num) (by norm_num)
  have g10 := (g7.mul g9).mono (A' := 48 / 10 ^ 4) (δ' := 475 / 10 ^ 19) (by norm_num) (by norm_num)
  have g11 := (g4.add' (i_ci hL h) (2) (by have := abs_le.mp (i_ci hL h).mag; rw [abs_le]; constructor <;> norm_num at * <;> linarith)).mono (A' := 2) (δ' := 579 / 10 ^ 17) (by norm_num) (by norm_num)
  have g12 := (g10.div g11 (1 / 10 ^ 2) (5 / 10 ^ 1) (by have := h.incl_cos; refine le_trans ?_ (le_abs_self _); show _ ≤ (1.0 : ℝ) + Real.cos ρ.xinclo; norm_num at *; linarith) (quot_le (m := 1 / 10 ^ 2) g10.mag (by have := h.incl_cos; refine le_trans ?_ (le_abs_self _); show _ ≤ (1.0 : ℝ) + Real.cos ρ.xinclo; norm_num at *; linarith) (by norm_num) (by norm_num))).mono (A' := 5 / 10 ^ 1) (δ' := 295 / 10 ^ 15) (by norm_num) (by norm_num)
  exact g12

theorem i_cc1sq (hL : Libm.Faithful) (h : Elements o ρ) : QS (cc1sq o) (cc1sq ρ) (|cc1sq ρ|) (1 / 10 ^ 4) (154 / 10 ^ 13) (423 / 10 ^ 46) := by
  have g1 := ((i_cc1 hL h).rmul (i_cc1 hL h)).mono (M₁ := 1 / 10 ^ 4) (ε₁ := 154 / 10 ^ 13) (η₁ := 423 / 10 ^ 46) (by norm_num) (by norm_num) (by norm_num)
  exact g1

theorem i_d2 (hL : Libm.Faithful) (h : Elements o ρ) : QS (d2 o) (d2 ρ) (|d2 ρ|) (312 / 10 ^ 4) (157 / 10 ^ 13) (132 / 10 ^ 43) := by
  have g1 := (Q.int 40 true 1 4 (by norm_num)).qs (σ := _) (M := 4) (m := 4) le_rfl (by norm_num) (by norm_num)
  have g2 := (g1).mono (M₁ := 4) (ε₁ := 0) (η₁ := 0) (by norm_num) (by norm_num) (by norm_num)
  have g3 := (g2.rmul (i_ao hL h)).mono (M₁ := 768 / 10 ^ 2) (ε₁ := 483 / 10 ^ 17) (η₁ := 876 / 10 ^ 49) (by norm_num) (by norm_num) (by norm_num)
  have g4 := (g3.rmul (i_tsi hL h)).mono (M₁ := 312) (ε₁ := 218 / 10 ^ 15) (η₁ := 441 / 10 ^ 47) (by norm_num) (by norm_num) (by norm_num)
  have g5 := (g4.rmul (i_cc1sq hL h)).mono (M₁ := 312 / 10 ^ 4) (ε₁ := 157 / 10 ^ 13) (η₁ := 132 / 10 ^ 43) (by norm_num) (by norm_num) (by norm_num)
  exact g5

theorem i_dtemp (hL : Libm.Faithful) (h : Elements o ρ) : QS (dtemp o) (dtemp ρ) (|dtemp ρ|) (424 / 10 ^ 5) (238 / 10 ^ 13) (536 / 10 ^ 44) := by
  have g1 := (Q.int 30 true 1 3 (by norm_num)).qs (σ := _) (M := 3) (m := 3) le_rfl (by norm_num) (by norm_num)
  have g2 := (g1).mono (M₁ := 3) (ε₁ := 0) (η₁ := 0) (by norm_num) (by norm_num) (by norm_num)
  have g3 := ((i_d2 hL h).rmul (i_tsi hL h)).mono (M₁ := 127 / 10 ^ 2) (ε₁ := 16 / 10 ^ 12) (η₁ := 535 / 10 ^ 42) (by norm_num) (by norm_num) (by norm_num)
  have g4 := (g3.rmul (i_cc1 hL h)).mono (M₁ := 127 / 10 ^ 4) (ε₁ := 237 / 10 ^ 13) (η₁ := 803 / 10 ^ 44) (by norm_num) (by norm_num) (by norm_num)
  have g5 := (g4.rdiv g2 (3) (by norm_num [abs_of_pos])).mono (M₁ := 424 / 10 ^ 5) (ε₁ := 238 / 10 ^ 13) (η₁ := 536 / 10 ^ 44) (by norm_num) (by norm_num) (by norm_num)
  exact g5

theorem i_ssR : QS (ss : F64) (ss : ℝ) |(ss : ℝ)| (102 / 10 ^ 2) (116 / 10 ^ 18) 0 := by
  have g1 := (i_ss.qs (σ := _) (m := 1) le_rfl i_ss.mag (by rw [ss_val, abs_of_pos (by norm_num)]; norm_num)).mono (M₁ := 102 / 10 ^ 2) (ε₁ := 116 / 10 ^ 18) (η₁ := 0) (by norm_num) (by norm_num) (by norm_num)
  exact g1

theorem ao_pos (hL : Libm.Faithful) (h : Elements o ρ) : 0 < ao ρ := lt_of_lt_of_le (by norm_num) (ao_bounds0 hL h).1
omit [Libm] in
theorem ss_pos : (0 : ℝ) < ss := by rw [ss_val]; norm_num
omit [Libm] in
theorem cc1sq_nonneg : 0 ≤ cc1sq ρ := mul_self_nonneg _
theorem d2_nonneg (hL : Libm.Faithful) (h : Elements o ρ) : 0 ≤ d2 ρ := by
  show 0 ≤ (4.0 : ℝ) * ao ρ * tsi ρ * cc1sq ρ
  have := ao_pos hL h; have := tsi_pos hL h; have := cc1sq_nonneg (ρ := ρ)
  positivity
omit [Libm] in
theorem dtemp_eq : dtemp ρ = cc1 ρ * (d2 ρ * tsi ρ / 3) := by show d2 ρ * tsi ρ * cc1 ρ / (3.0 : ℝ) = _; norm_num; ring
omit [Libm] in
theorem d3_eq : d3 ρ = cc1 ρ * ((17 * ao ρ + ss) * (d2 ρ * tsi ρ / 3)) := by
  show ((17.0 : ℝ) * ao ρ + ss) * dtemp ρ = _; rw [dtemp_eq]; norm_num; ring
theorem d4_nonneg (hL : Libm.Faithful) (h : Elements o ρ) : 0 ≤ d4 ρ := by
  have e : d4 ρ = 1 / 2 * (d2 ρ * tsi ρ / 3) * ao ρ * tsi ρ * (221 * ao ρ + 31 * ss) * (cc1 ρ * cc1 ρ) := by
    show (0.5 : ℝ) * dtemp ρ * ao ρ * tsi ρ * ((221.0 : ℝ) * ao ρ + 31.0 * ss) * cc1 ρ = _
    have l : (0.5 : ℝ) = 1 / 2 ∧ (221.0 : ℝ) = 221 ∧ (31.0 : ℝ) = 31 := by norm_num
    rw [l.1, l.2.1, l.2.2, dtemp_eq]; ring
  have := ao_pos hL h; have := tsi_pos hL h; have := d2_nonneg hL h; have := ss_pos
  have := mul_self_nonneg (cc1 ρ)
  rw [e]; positivity
theorem cd3_nonneg (hL : Libm.Faithful) (h : Elements o ρ) : 0 ≤ (12.0 : ℝ) * cc1 ρ * d3 ρ := by
  have := ao_pos hL h; have := tsi_pos hL h; have := d2_nonneg hL h; have := ss_pos
  have h1 := mul_self_nonneg (cc1 ρ)
  have e : (12.0 : ℝ) * cc1 ρ * d3 ρ = 12 * (cc1 ρ * cc1 ρ) * ((17 * ao ρ + ss) * (d2 ρ * tsi ρ / 3)) := by rw [d3_eq]; norm_num; ring
  rw [e]; positivity
omit [Libm] in
/-- terms with a common factor -/
theorem abs_common {c p q : ℝ} (hp : 0 ≤ p) (hq : 0 ≤ q) : |c * p| + |c * q| = |c * p + c * q| := by
  rw [← mul_add, abs_mul, abs_mul, abs_mul, abs_of_nonneg hp, abs_of_nonneg hq, abs_of_nonneg (add_nonneg hp hq)]; ring
theorem t4_signs (hL : Libm.Faithful) (h : Elements o ρ) :
    |(3.0 : ℝ) * d3 ρ| + |cc1 ρ * ((12.0 : ℝ) * d2 ρ + (10.0 : ℝ) * cc1sq ρ)| = |(3.0 : ℝ) * d3 ρ + cc1 ρ * ((12.0 : ℝ) * d2 ρ + (10.0 : ℝ) * cc1sq ρ)| := by
  have a1 := ao_pos hL h; have a2 := tsi_pos hL h; have a3 := d2_nonneg hL h; have a4 := ss_pos; have a5 := cc1sq_nonneg (ρ := ρ)
  have e : (3.0 : ℝ) * d3 ρ = cc1 ρ * (3 * ((17 * ao ρ + ss) * (d2 ρ * tsi ρ / 3))) := by rw [d3_eq]; norm_num; ring
  rw [e]
  exact abs_common (by positivity) (by positivity)

theorem i_d3 (hL : Libm.Faithful) (h : Elements o ρ) : QS (d3 o) (d3 ρ) (|d3 ρ|) (144 / 10 ^ 3) (239 / 10 ^ 13) (182 / 10 ^ 42) := by
  have g1 := (Q.int 170 true 1 17 (by norm_num)).qs (σ := _) (M := 17) (m := 17) le_rfl (by norm_num) (by norm_num)
  have g2 := (g1).mono (M₁ := 17) (ε₁ := 0) (η₁ := 0) (by norm_num) (by norm_num) (by norm_num)
  have g3 := (g2.rmul (i_ao hL h)).mono (M₁ := 327 / 10 ^ 1) (ε₁ := 483 / 10 ^ 17) (η₁ := 876 / 10 ^ 49) (by norm_num) (by norm_num) (by norm_num)
  have g4 := (i_ssR).mono (M₁ := 102 / 10 ^ 2) (ε₁ := 483 / 10 ^ 17) (η₁ := 0) (by norm_num) (by norm_num) (by norm_num)
  have g5 := (g3.radd g4 (by have := ao_pos hL h; positivity) ss_pos.le).mono (M₁ := 338 / 10 ^ 1) (ε₁ := 495 / 10 ^ 17) (η₁ := 176 / 10 ^ 48) (by norm_num) (by norm_num) (by norm_num)
  have g6 := (g5.rmul (i_dtemp hL h)).mono (M₁ := 144 / 10 ^ 3) (ε₁ := 239 / 10 ^ 13) (η₁ := 182 / 10 ^ 42) (by norm_num) (by norm_num) (by norm_num)
  exact g6

theorem i_d4 (hL : Libm.Faithful) (h : Elements o ρ) : QS (d4 o) (d4 ρ) (|d4 ρ|) (759 / 10 ^ 3) (321 / 10 ^ 13) (113 / 10 ^ 41) := by
  have g1 := Q.dyadic 5 true 1 1 1 (5 / 10 ^ 1) (by norm_num) (by norm_num)
  have g2 := (g1.qs (σ := _) (m := 5 / 10 ^ 1) le_rfl g1.mag (by norm_num [abs_of_pos])).mono (M₁ := 5 / 10 ^ 1) (ε₁ := 0) (η₁ := 0) (by norm_num) (by norm_num) (by norm_num)
  have g3 := (Q.int 2210 true 1 221 (by norm_num)).qs (σ := _) (M := 221) (m := 221) le_rfl (by norm_num) (by norm_num)
  have g4 := (g3).mono (M₁ := 221) (ε₁ := 0) (η₁ := 0) (by norm_num) (by norm_num) (by norm_num)
  have g5 := (Q.int 310 true 1 31 (by norm_num)).qs (σ := _) (M := 31) (m := 31) le_rfl (by norm_num) (by norm_num)
  have g6 := (g5).mono (M₁ := 31) (ε₁ := 0) (η₁ := 0) (by norm_num) (by norm_num) (by norm_num)
  have g7 := (g4.rmul (i_ao hL h)).mono (M₁ := 425) (ε₁ := 483 / 10 ^ 17) (η₁ := 876 / 10 ^ 49) (by norm_num) (by norm_num) (by norm_num)
  have g8 := (g6.rmul i_ssR).mono (M₁ := 317 / 10 ^ 1) (ε₁ := 228 / 10 ^ 18) (η₁ := 876 / 10 ^ 49) (by norm_num) (by norm_num) (by norm_num)
  have g9 := (g8).mono (M₁ := 317 / 10 ^ 1) (ε₁ := 483 / 10 ^ 17) (η₁ := 876 / 10 ^ 49) (by norm_num) (by norm_num) (by norm_num)
  have g10 := (g7.radd g9 (by have := ao_pos hL h; positivity) (by have := ss_pos; positivity)).mono (M₁ := 457) (ε₁ := 495 / 10 ^ 17) (η₁ := 263 / 10 ^ 48) (by norm_num) (by norm_num) (by norm_num)
  have g11 := (g2.rmul (i_dtemp hL h)).mono (M₁ := 212 / 10 ^ 5) (ε₁ := 239 / 10 ^ 13) (η₁ := 269 / 10 ^ 44) (by norm_num) (by norm_num) (by norm_num)
  have g12 := (g11.rmul (i_ao hL h)).mono (M₁ := 408 / 10 ^ 5) (ε₁ := 24 / 10 ^ 12) (η₁ := 517 / 10 ^ 44) (by norm_num) (by norm_num) (by norm_num)
  have g13 := (g12.rmul (i_tsi hL h)).mono (M₁ := 166 / 10 ^ 3) (ε₁ := 243 / 10 ^ 13) (η₁ := 21 / 10 ^ 41) (by norm_num) (by norm_num) (by norm_num)
  have g14 := (g13.rmul g10).mono (M₁ := 759 / 10 ^ 1) (ε₁ := 244 / 10 ^ 13) (η₁ := 96 / 10 ^ 39) (by norm_num) (by norm_num) (by norm_num)
  have g15 := (g14.rmul (i_cc1 hL h)).mono (M₁ := 759 / 10 ^ 3) (ε₁ := 321 / 10 ^ 13) (η₁ := 113 / 10 ^ 41) (by norm_num) (by norm_num) (by norm_num)
  exact g15

theorem i_t3cof (hL : Libm.Faithful) (h : Elements o ρ) : QS (t3cof o) (t3cof ρ) (|t3cof ρ|) (314 / 10 ^ 4) (158 / 10 ^ 13) (133 / 10 ^ 43) := by
  have g1 := (Q.int 20 true 1 2 (by norm_num)).qs (σ := _) (M := 2) (m := 2) le_rfl (by norm_num) (by norm_num)
  have g2 := (g1).mono (M₁ := 2) (ε₁ := 0) (η₁ := 0) (by norm_num) (by norm_num) (by norm_num)
  have g3 := (g2.rmul (i_cc1sq hL h)).mono (M₁ := 2 / 10 ^ 4) (ε₁ := 155 / 10 ^ 13) (η₁ := 847 / 10 ^ 46) (by norm_num) (by norm_num) (by norm_num)
  have g4 := (g3).mono (M₁ := 2 / 10 ^ 4) (ε₁ := 157 / 10 ^ 13) (η₁ := 847 / 10 ^ 46) (by norm_num) (by norm_num) (by norm_num)
  have g5 := ((i_d2 hL h).radd g4 (d2_nonneg hL h) (by have := cc1sq_nonneg (ρ := ρ); positivity)).mono (M₁ := 314 / 10 ^ 4) (ε₁ := 158 / 10 ^ 13) (η₁ := 133 / 10 ^ 43) (by norm_num) (by norm_num) (by norm_num)
  exact g5

theorem i_t4cof (hL : Libm.Faithful) (h : Elements o ρ) : QS (t4cof o) (t4cof ρ) (|t4cof ρ|) (109 / 10 ^ 3) (242 / 10 ^ 13) (138 / 10 ^ 42) := by
  have g1 := Q.dyadic 25 true 2 1 2 (25 / 10 ^ 2) (by norm_num) (by norm_num)
  have g2 := (g1.qs (σ := _) (m := 25 / 10 ^ 2) le_rfl g1.mag (by norm_num [abs_of_pos])).mono (M₁ := 25 / 10 ^ 2) (ε₁ := 0) (η₁ := 0) (by norm_num) (by norm_num) (by norm_num)
  have g3 := (Q.int 30 true 1 3 (by norm_num)).qs (σ := _) (M := 3) (m := 3) le_rfl (by norm_num) (by norm_num)
  have g4 := (g3).mono (M₁ := 3) (ε₁ := 0) (η₁ := 0) (by norm_num) (by norm_num) (by norm_num)
  have g5 := (Q.int 120 true 1 12 (by norm_num)).qs (σ := _) (M := 12) (m := 12) le_rfl (by norm_num) (by norm_num)
  have g6 := (g5).mono (M₁ := 12) (ε₁ := 0) (η₁ := 0) (by norm_num) (by norm_num) (by norm_num)
  have g7 := (Q.int 100 true 1 10 (by norm_num)).qs (σ := _) (M := 10) (m := 10) le_rfl (by norm_num) (by norm_num)
  have g8 := (g7).mono (M₁ := 10) (ε₁ := 0) (η₁ := 0) (by norm_num) (by norm_num) (by norm_num)
  have g9 := (g6.rmul (i_d2 hL h)).mono (M₁ := 375 / 10 ^ 3) (ε₁ := 158 / 10 ^ 13) (η₁ := 159 / 10 ^ 42) (by norm_num) (by norm_num) (by norm_num)
  have g10 := (g8.rmul (i_cc1sq hL h)).mono (M₁ := 1 / 10 ^ 3) (ε₁ := 155 / 10 ^ 13) (η₁ := 424 / 10 ^ 45) (by norm_num) (by norm_num) (by norm_num)
  have g11 := (g10).mono (M₁ := 1 / 10 ^ 3) (ε₁ := 158 / 10 ^ 13) (η₁ := 424 / 10 ^ 45) (by norm_num) (by norm_num) (by norm_num)
  have g12 := (g9.radd g11 (by have := d2_nonneg hL h; positivity) (by have := cc1sq_nonneg (ρ := ρ); positivity)).mono (M₁ := 376 / 10 ^ 3) (ε₁ := 159 / 10 ^ 13) (η₁ := 16 / 10 ^ 41) (by norm_num) (by norm_num) (by norm_num)
  have g13 := (g4.rmul (i_d3 hL h)).mono (M₁ := 432 / 10 ^ 3) (ε₁ := 24 / 10 ^ 12) (η₁ := 547 / 10 ^ 42) (by norm_num) (by norm_num) (by norm_num)
  have g14 := ((i_cc1 hL h).rmul g12).mono (M₁ := 376 / 10 ^ 5) (ε₁ := 236 / 10 ^ 13) (η₁ := 24 / 10 ^ 43) (by norm_num) (by norm_num) (by norm_num)
  have g15 := (g14).mono (M₁ := 376 / 10 ^ 5) (ε₁ := 24 / 10 ^ 12) (η₁ := 24 / 10 ^ 43) (by norm_num) (by norm_num) (by norm_num)
  have g16 := (g13.radd' g15 (t4_signs hL h)).mono (M₁ := 436 / 10 ^ 3) (ε₁ := 241 / 10 ^ 13) (η₁ := 55 / 10 ^ 41) (by norm_num) (by norm_num) (by norm_num)
  have g17 := (g2.rmul g16).mono (M₁ := 109 / 10 ^ 3) (ε₁ := 242 / 10 ^ 13) (η₁ := 138 / 10 ^ 42) (by norm_num) (by norm_num) (by norm_num)
  exact g17

theorem i_t5cof (hL : Libm.Faithful) (h : Elements o ρ) : QS (t5cof o) (t5cof ρ) (|t5cof ρ|) (464 / 10 ^ 3) (326 / 10 ^ 13) (691 / 10 ^ 42) := by
  have g1 := (Q.sci 2 true 1 (2 / 10 ^ 1) (by norm_num)).mono (A' := 2 / 10 ^ 1) (δ' := 223 / 10 ^ 19) (by norm_num) (by norm_num)
  have g2 := (g1.qs (σ := _) (m := 2 / 10 ^ 1) le_rfl g1.mag (by norm_num [abs_of_pos])).mono (M₁ := 2 / 10 ^ 1) (ε₁ := 112 / 10 ^ 18) (η₁ := 0) (by norm_num) (by norm_num) (by norm_num)
  have g3 := (Q.int 30 true 1 3 (by norm_num)).qs (σ := _) (M := 3) (m := 3) le_rfl (by norm_num) (by norm_num)
  have g4 := (g3).mono (M₁ := 3) (ε₁ := 0) (η₁ := 0) (by norm_num) (by norm_num) (by norm_num)
  have g5 := (Q.int 120 true 1 12 (by norm_num)).qs (σ := _) (M := 12) (m := 12) le_rfl (by norm_num) (by norm_num)
  have g6 := (g5).mono (M₁ := 12) (ε₁ := 0) (η₁ := 0) (by norm_num) (by norm_num) (by norm_num)
  have g7 := (Q.int 60 true 1 6 (by norm_num)).qs (σ := _) (M := 6) (m := 6) le_rfl (by norm_num) (by norm_num)
  have g8 := (g7).mono (M₁ := 6) (ε₁ := 0) (η₁ := 0) (by norm_num) (by norm_num) (by norm_num)
  have g9 := (Q.int 150 true 1 15 (by norm_num)).qs (σ := _) (M := 15) (m := 15) le_rfl (by norm_num) (by norm_num)
  have g10 := (g9).mono (M₁ := 15) (ε₁ := 0) (η₁ := 0) (by norm_num) (by norm_num) (by norm_num)
  have g11 := (Q.int 20 true 1 2 (by norm_num)).qs (σ := _) (M := 2) (m := 2) le_rfl (by norm_num) (by norm_num)
  have g12 := (g11).mono (M₁ := 2) (ε₁ := 0) (η₁ := 0) (by norm_num) (by norm_num) (by norm_num)
  have g13 := (g4.rmul (i_d4 hL h)).mono (M₁ := 228 / 10 ^ 2) (ε₁ := 322 / 10 ^ 13) (η₁ := 34 / 10 ^ 40) (by norm_num) (by norm_num) (by norm_num)
  have g14 := (g6.rmul (i_cc1 hL h)).mono (M₁ := 12 / 10 ^ 2) (ε₁ := 768 / 10 ^ 14) (η₁ := 254 / 10 ^ 43) (by norm_num) (by norm_num) (by norm_num)
  have g15 := (g14.rmul (i_d3 hL h)).mono (M₁ := 173 / 10 ^ 4) (ε₁ := 316 / 10 ^ 13) (η₁ := 255 / 10 ^ 43) (by norm_num) (by norm_num) (by norm_num)
  have g16 := (g15).mono (M₁ := 173 / 10 ^ 4) (ε₁ := 322 / 10 ^ 13) (η₁ := 255 / 10 ^ 43) (by norm_num) (by norm_num) (by norm_num)
  have g17 := (g13.radd g16 (by have := d4_nonneg hL h; positivity) (cd3_nonneg hL h)).mono (M₁ := 23 / 10 ^ 1) (ε₁ := 323 / 10 ^ 13) (η₁ := 343 / 10 ^ 41) (by norm_num) (by norm_num) (by norm_num)
  have g18 := (g8.rmul (i_d2 hL h)).mono (M₁ := 188 / 10 ^ 3) (ε₁ := 158 / 10 ^ 13) (η₁ := 793 / 10 ^ 43) (by norm_num) (by norm_num) (by norm_num)
  have g19 := (g18.rmul (i_d2 hL h)).mono (M₁ := 587 / 10 ^ 5) (ε₁ := 316 / 10 ^ 13) (η₁ := 496 / 10 ^ 44) (by norm_num) (by norm_num) (by norm_num)
  have g20 := (g19).mono (M₁ := 587 / 10 ^ 5) (ε₁ := 323 / 10 ^ 13) (η₁ := 496 / 10 ^ 44) (by norm_num) (by norm_num) (by norm_num)
  have g21 := (g17.radd g20 (by have := d4_nonneg hL h; have := cd3_nonneg hL h; positivity) (by have := d2_nonneg hL h; positivity)).mono (M₁ := 231 / 10 ^ 2) (ε₁ := 324 / 10 ^ 13) (η₁ := 344 / 10 ^ 41) (by norm_num) (by norm_num) (by norm_num)
  have g22 := (g12.rmul (i_d2 hL h)).mono (M₁ := 624 / 10 ^ 4) (ε₁ := 158 / 10 ^ 13) (η₁ := 265 / 10 ^ 43) (by norm_num) (by norm_num) (by norm_num)
  have g23 := ((i_cc1sq hL h)).mono (M₁ := 1 / 10 ^ 4) (ε₁ := 158 / 10 ^ 13) (η₁ := 423 / 10 ^ 46) (by norm_num) (by norm_num) (by norm_num)
  have g24 := (g22.radd g23 (by have := d2_nonneg hL h; positivity) cc1sq_nonneg).mono (M₁ := 625 / 10 ^ 4) (ε₁ := 159 / 10 ^ 13) (η₁ := 266 / 10 ^ 43) (by norm_num) (by norm_num) (by norm_num)
  have g25 := (g10.rmul (i_cc1sq hL h)).mono (M₁ := 15 / 10 ^ 4) (ε₁ := 155 / 10 ^ 13) (η₁ := 635 / 10 ^ 45) (by norm_num) (by norm_num) (by norm_num)
  have g26 := (g25.rmul g24).mono (M₁ := 938 / 10 ^ 7) (ε₁ := 315 / 10 ^ 13) (η₁ := 797 / 10 ^ 46) (by norm_num) (by norm_num) (by norm_num)
  have g27 := (g26).mono (M₁ := 938 / 10 ^ 7) (ε₁ := 324 / 10 ^ 13) (η₁ := 797 / 10 ^ 46) (by norm_num) (by norm_num) (by norm_num)
  have g28 := (g21.radd g27 (by have := d4_nonneg hL h; have := cd3_nonneg hL h; have := d2_nonneg hL h; positivity) (by have := d2_nonneg hL h; have := cc1sq_nonneg (ρ := ρ); positivity)).mono (M₁ := 232 / 10 ^ 2) (ε₁ := 325 / 10 ^ 13) (η₁ := 345 / 10 ^ 41) (by norm_num) (by norm_num) (by norm_num)
  have g29 := (g2.rmul g28).mono (M₁ := 464 / 10 ^ 3) (ε₁ := 326 / 10 ^ 13) (η₁ := 691 / 10 ^ 42) (by norm_num) (by norm_num) (by norm_num)
  exact g29

end
end Sat.Chain
