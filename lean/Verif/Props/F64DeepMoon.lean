import Verif.Props.F64DeepInit
/-!
# The lunar-solar coefficients in doubles against the same coefficients in exact arithmetic

The orientation of the moon at epoch, the direction cosines `a1 .. a10`, the coefficients `x1 .. x8`, and the amplitudes of the lunar-solar periodics
in eccentricity and inclination.
-/

namespace Sat.Far
open F64 Chain

section
variable {F : Type} [Arith F] (o : SGP4InitOptions F)
/-- `dscom.rs:240-250` for the elements `o` -/
def tq : SatTrig F := satTrig (dscomArgs o (no o))
/-- `dscom.rs:258-272` -/
def tl : Lunar F := lunar o.epoch 0.0
/-- `dscom.rs:275-281` -/
def fS : BodyFrame F := solarFrame (tq o)
/-- `dscom.rs:358-364` -/
def fM : BodyFrame F := lunarFrame (tq o) (tl o)
theorem ls_sun : (ls o).sun = pass (tq o) (fS o) (1.0 / no o) := rfl
theorem ls_moon : (ls o).moon = pass (tq o) (fM o) (1.0 / no o) := rfl
end

section
variable [Libm] {o : SGP4InitOptions F64} {ρ : SGP4InitOptions ℝ}
theorem m_day (hL : Libm.Faithful) (h : Elements o ρ) : Q ((tl o).day) ((tl ρ).day) (58300) (954 / 10 ^ 12) := by
  have g1 := (Q.int 0 true 1 0 (by norm_num)).mono (A' := 0) (δ' := 0) (by norm_num) le_rfl
  have g2 := (Q.int 14400 true 1 1440 (by norm_num)).mono (A' := 1440) (δ' := 0) (by norm_num) le_rfl
  have g3 := Q.dyadic 182615 true 1 36523 1 (182615 / 10 ^ 1) (by norm_num) (by norm_num)
  have g4 := (g1.div g2 (1440) (0) (by norm_num [abs_of_pos]) (quot_le (m := 1440) g1.mag (by norm_num [abs_of_pos]) (by norm_num) (by norm_num))).mono (A' := 0) (δ' := 876 / 10 ^ 49) (by norm_num) (by norm_num)
  have g5 := ((in_epoch h).add g3).mono (A' := 58300) (δ' := 947 / 10 ^ 12) (by norm_num) (by norm_num)
  have g6 := (g5.add g4).mono (A' := 58300) (δ' := 954 / 10 ^ 12) (by norm_num) (by norm_num)
  exact g6

theorem m_xnodce (hL : Libm.Faithful) (h : Elements o ρ) : QA ((tl o).xnodce) ((tl ρ).xnodce) (63 / 10 ^ 1) (908 / 10 ^ 15) := by
  have g1 := (Q.sci 45236020 true 7 (453 / 10 ^ 2) (by norm_num)).mono (A' := 453 / 10 ^ 2) (δ' := 503 / 10 ^ 18) (by norm_num) (by norm_num)
  have g2 := (Q.sci 92422029 true 11 (925 / 10 ^ 6) (by norm_num)).mono (A' := 925 / 10 ^ 6) (δ' := 103 / 10 ^ 21) (by norm_num) (by norm_num)
  have g3 := (g2.mul (m_day hL h)).mono (A' := 54) (δ' := 895 / 10 ^ 15) (by norm_num) (by norm_num)
  have g4 := (g1.sub g3).mono (A' := 586 / 10 ^ 1) (δ' := 903 / 10 ^ 15) (by norm_num) (by norm_num)
  have g5 := (g4.angle).mono (A' := 587 / 10 ^ 1) (δ' := 903 / 10 ^ 15) (by norm_num) (by norm_num)
  have g6 := (g5.remT).mono (A' := 63 / 10 ^ 1) (δ' := 908 / 10 ^ 15) (by norm_num) (by norm_num)
  exact g6

theorem m_stem (hL : Libm.Faithful) (h : Elements o ρ) : Q ((tl o).stem) ((tl ρ).stem) (1) (912 / 10 ^ 15) := by
  have g1 := ((m_xnodce hL h).sin hL).mono (A' := 1) (δ' := 912 / 10 ^ 15) (by norm_num) (by norm_num)
  exact g1

theorem m_ctem (hL : Libm.Faithful) (h : Elements o ρ) : Q ((tl o).ctem) ((tl ρ).ctem) (1) (912 / 10 ^ 15) := by
  have g1 := ((m_xnodce hL h).cos hL).mono (A' := 1) (δ' := 912 / 10 ^ 15) (by norm_num) (by norm_num)
  exact g1

section
omit [Libm]
theorem trig_moon : (tl ρ).stem ^ 2 + (tl ρ).ctem ^ 2 = 1 := Real.sin_sq_add_cos_sq _
theorem ctem_le : |(tl ρ).ctem| ≤ 1 := Real.abs_cos_le_one _
theorem stem_le : |(tl ρ).stem| ≤ 1 := Real.abs_sin_le_one _
theorem zcosil_bounds : 878 / 10 ^ 3 ≤ (tl ρ).zcosil ∧ (tl ρ).zcosil ≤ 95 / 10 ^ 2 := by
  have e : (tl ρ).zcosil = 0.91375164 - 0.03568096 * (tl ρ).ctem := rfl
  obtain ⟨h1, h2⟩ := abs_le.mp (ctem_le (ρ := ρ))
  rw [e]; constructor <;> norm_num at * <;> linarith
theorem zcosil_hi : (tl ρ).zcosil ≤ 94944 / 10 ^ 5 := by
  have e : (tl ρ).zcosil = 0.91375164 - 0.03568096 * (tl ρ).ctem := rfl
  obtain ⟨h1, h2⟩ := abs_le.mp (ctem_le (ρ := ρ))
  rw [e]; norm_num at *; linarith
theorem sinil_sq : (3138 / 10 ^ 4) ^ 2 ≤ (1.0 : ℝ) - (tl ρ).zcosil * (tl ρ).zcosil ∧ (1.0 : ℝ) - (tl ρ).zcosil * (tl ρ).zcosil ≤ 23 / 10 ^ 2 := by
  have h1 := (zcosil_bounds (ρ := ρ)).1
  have h2 := zcosil_hi (ρ := ρ)
  have a1 := mul_le_mul h1 h1 (by norm_num) (le_trans (by norm_num) h1)
  have a2 := mul_le_mul h2 h2 (le_trans (by norm_num) h1) (by norm_num)
  constructor <;> norm_num at * <;> linarith
theorem zsinil_eq : (tl ρ).zsinil = Real.sqrt (1.0 - (tl ρ).zcosil * (tl ρ).zcosil) := rfl
theorem zsinil_bounds : 3138 / 10 ^ 4 ≤ (tl ρ).zsinil ∧ (tl ρ).zsinil ≤ 48 / 10 ^ 2 := by
  rw [zsinil_eq]
  refine ⟨Real.le_sqrt_of_sq_le sinil_sq.1, ?_⟩
  rw [Real.sqrt_le_left (by norm_num)]
  exact sinil_sq.2.trans (by norm_num)
theorem zsinil_sq : (tl ρ).zcosil ^ 2 + (tl ρ).zsinil ^ 2 = 1 := by
  rw [zsinil_eq, Real.sq_sqrt (le_trans (by norm_num) sinil_sq.1)]; norm_num; ring
theorem zsinil_abs : 3138 / 10 ^ 4 ≤ |(tl ρ).zsinil| := zsinil_bounds.1.trans (le_abs_self _)
theorem zsinhl_le : |(tl ρ).zsinhl| ≤ 286 / 10 ^ 3 := by
  have e : (tl ρ).zsinhl = 0.089683511 * (tl ρ).stem / (tl ρ).zsinil := rfl
  rw [e]
  refine quot_le (A := 8969 / 10 ^ 5) (m := 3138 / 10 ^ 4) ?_ zsinil_abs (by norm_num) (by norm_num)
  rw [abs_mul]
  exact (mul_le_mul (by norm_num [abs_of_pos] : |(0.089683511 : ℝ)| ≤ 8969 / 10 ^ 5) stem_le (abs_nonneg _) (by norm_num)).trans (by norm_num)
theorem coshl_sq : (958 / 10 ^ 3) ^ 2 ≤ (1.0 : ℝ) - (tl ρ).zsinhl * (tl ρ).zsinhl ∧ (1.0 : ℝ) - (tl ρ).zsinhl * (tl ρ).zsinhl ≤ 1 := by
  have h1 := zsinhl_le (ρ := ρ)
  have a1 := mul_le_mul h1 h1 (abs_nonneg _) (by norm_num)
  rw [abs_mul_abs_self] at a1
  have := mul_self_nonneg (tl ρ).zsinhl
  constructor <;> norm_num at * <;> linarith
theorem zcoshl_eq : (tl ρ).zcoshl = Real.sqrt (1.0 - (tl ρ).zsinhl * (tl ρ).zsinhl) := rfl
theorem zcoshl_bounds : 958 / 10 ^ 3 ≤ (tl ρ).zcoshl ∧ (tl ρ).zcoshl ≤ 1 := by
  rw [zcoshl_eq]
  refine ⟨Real.le_sqrt_of_sq_le coshl_sq.1, ?_⟩
  rw [Real.sqrt_le_left (by norm_num)]
  exact coshl_sq.2.trans (by norm_num)
theorem zcoshl_sq : (tl ρ).zcoshl ^ 2 + (tl ρ).zsinhl ^ 2 = 1 := by
  rw [zcoshl_eq, Real.sq_sqrt (le_trans (by norm_num) coshl_sq.1)]; norm_num; ring
/-- the vector whose direction gives the lunar longitude has length at least 0.41 -/
theorem moon_vec : (41 / 10 ^ 2) ^ 2 ≤ ((tl ρ).zcoshl * (tl ρ).ctem + 0.91744867 * (tl ρ).zsinhl * (tl ρ).stem) ^ 2 +
    (0.39785416 * (tl ρ).stem / (tl ρ).zsinil) ^ 2 := by
  have h1 := trig_moon (ρ := ρ)
  obtain ⟨i1, i2⟩ := zsinil_bounds (ρ := ρ)
  obtain ⟨c1, c2⟩ := zcoshl_bounds (ρ := ρ)
  have s1 := zsinhl_le (ρ := ρ)
  generalize (tl ρ).stem = S at *
  generalize (tl ρ).ctem = C at *
  generalize (tl ρ).zsinil = I at *
  generalize (tl ρ).zcoshl = K at *
  generalize (tl ρ).zsinhl = J at *
  have ip : 0 < I := lt_of_lt_of_le (by norm_num) i1
  by_cases hc : 1 / 4 ≤ S ^ 2
  · have : 169 / 1000 ≤ (0.39785416 * S / I) ^ 2 := by
      rw [div_pow, le_div_iff₀ (by positivity)]
      have : I ^ 2 ≤ 2304 / 10 ^ 4 := (pow_le_pow_left₀ ip.le i2 2).trans (by norm_num)
      have e : (0.39785416 * S) ^ 2 = 0.39785416 ^ 2 * S ^ 2 := by ring
      rw [e]
      norm_num at *; linarith
    have := sq_nonneg (K * C + 0.91744867 * J * S)
    norm_num at *; linarith
  · have hS : |S| ≤ 1 / 2 := abs_le_of_sq_le_sq (by norm_num at *; linarith) (by norm_num)
    have hC : 866 / 1000 ≤ |C| := by
      refine le_of_not_gt fun hlt => ?_
      have := mul_self_lt_mul_self (abs_nonneg C) hlt
      rw [abs_mul_abs_self] at this
      norm_num at *; nlinarith
    have t1 : 829 / 1000 ≤ |K * C| := by
      rw [abs_mul, abs_of_pos (lt_of_lt_of_le (by norm_num) c1)]
      exact le_trans (by norm_num) (mul_le_mul c1 hC (by norm_num) (le_trans (by norm_num) c1))
    have t2 : |0.91744867 * J * S| ≤ 132 / 1000 := by
      rw [abs_mul, abs_mul]
      have : |(0.91744867 : ℝ)| ≤ 918 / 1000 := by norm_num [abs_of_pos]
      exact (mul_le_mul (mul_le_mul this s1 (abs_nonneg _) (by norm_num)) hS (abs_nonneg _) (by norm_num)).trans (by norm_num)
    have t3 : 697 / 1000 ≤ |K * C + 0.91744867 * J * S| := by
      have := abs_sub_abs_le_abs_sub (K * C) (-(0.91744867 * J * S))
      rw [abs_neg, sub_neg_eq_add] at this
      linarith
    have t4 : 485 / 1000 ≤ (K * C + 0.91744867 * J * S) ^ 2 := by
      rw [← sq_abs]
      exact le_trans (by norm_num) (pow_le_pow_left₀ (by norm_num) t3 2)
    have := sq_nonneg (0.39785416 * S / I)
    norm_num at *; linarith
end

theorem m_zcosil (hL : Libm.Faithful) (h : Elements o ρ) : Q ((tl o).zcosil) ((tl ρ).zcosil) (95 / 10 ^ 2) (329 / 10 ^ 16) := by
  have g1 := (Q.sci 91375164 true 8 (914 / 10 ^ 3) (by norm_num)).mono (A' := 914 / 10 ^ 3) (δ' := 102 / 10 ^ 18) (by norm_num) (by norm_num)
  have g2 := (Q.sci 3568096 true 8 (357 / 10 ^ 4) (by norm_num)).mono (A' := 357 / 10 ^ 4) (δ' := 397 / 10 ^ 20) (by norm_num) (by norm_num)
  have g3 := (g2.mul (m_ctem hL h)).mono (A' := 357 / 10 ^ 4) (δ' := 326 / 10 ^ 16) (by norm_num) (by norm_num)
  have g4 := (g1.sub' g3 (95 / 10 ^ 2) (by show |(tl ρ).zcosil| ≤ _; rw [abs_of_pos (lt_of_lt_of_le (by norm_num) zcosil_bounds.1)]; exact zcosil_bounds.2)).mono (A' := 95 / 10 ^ 2) (δ' := 329 / 10 ^ 16) (by norm_num) (by norm_num)
  exact g4

theorem m_zsinil (hL : Libm.Faithful) (h : Elements o ρ) : Q ((tl o).zsinil) ((tl ρ).zsinil) (48 / 10 ^ 2) (201 / 10 ^ 15) := by
  have g1 := (Q.int 10 true 1 1 (by norm_num)).mono (A' := 1) (δ' := 0) (by norm_num) le_rfl
  have g2 := ((m_zcosil hL h).mul (m_zcosil hL h)).mono (A' := 903 / 10 ^ 3) (δ' := 627 / 10 ^ 16) (by norm_num) (by norm_num)
  have g3 := (g1.sub' g2 (23 / 10 ^ 2) (by rw [abs_of_nonneg (le_trans (by norm_num) sinil_sq.1)]; exact sinil_sq.2)).mono (A' := 23 / 10 ^ 2) (δ' := 628 / 10 ^ 16) (by norm_num) (by norm_num)
  have g4 := (g3.sqrt (3138 / 10 ^ 4) (48 / 10 ^ 2) sinil_sq.1 (by norm_num)).mono (A' := 48 / 10 ^ 2) (δ' := 201 / 10 ^ 15) (by norm_num) (by norm_num)
  exact g4

theorem m_zsinhl (hL : Libm.Faithful) (h : Elements o ρ) : Q ((tl o).zsinhl) ((tl ρ).zsinhl) (286 / 10 ^ 3) (445 / 10 ^ 15) := by
  have g1 := (Q.sci 89683511 true 9 (897 / 10 ^ 4) (by norm_num)).mono (A' := 897 / 10 ^ 4) (δ' := 996 / 10 ^ 20) (by norm_num) (by norm_num)
  have g2 := (g1.mul (m_stem hL h)).mono (A' := 897 / 10 ^ 4) (δ' := 819 / 10 ^ 16) (by norm_num) (by norm_num)
  have g3 := (g2.div (m_zsinil hL h) (3138 / 10 ^ 4) (287 / 10 ^ 3) zsinil_abs (quot_le (m := 3138 / 10 ^ 4) g2.mag zsinil_abs (by norm_num) (by norm_num))).mono (A' := 287 / 10 ^ 3) (δ' := 445 / 10 ^ 15) (by norm_num) (by norm_num)
  have g4 := g3.bound (A' := 286 / 10 ^ 3) zsinhl_le
  exact g4

theorem m_zcoshl (hL : Libm.Faithful) (h : Elements o ρ) : Q ((tl o).zcoshl) ((tl ρ).zcoshl) (1) (268 / 10 ^ 15) := by
  have g1 := (Q.int 10 true 1 1 (by norm_num)).mono (A' := 1) (δ' := 0) (by norm_num) le_rfl
  have g2 := ((m_zsinhl hL h).mul (m_zsinhl hL h)).mono (A' := 818 / 10 ^ 4) (δ' := 255 / 10 ^ 15) (by norm_num) (by norm_num)
  have g3 := (g1.sub' g2 (1) (by rw [abs_of_nonneg (le_trans (by norm_num) coshl_sq.1)]; exact coshl_sq.2)).mono (A' := 1) (δ' := 256 / 10 ^ 15) (by norm_num) (by norm_num)
  have g4 := (g3.sqrt (958 / 10 ^ 3) (1) coshl_sq.1 (by norm_num)).mono (A' := 1) (δ' := 268 / 10 ^ 15) (by norm_num) (by norm_num)
  exact g4

theorem m_gam (hL : Libm.Faithful) (h : Elements o ρ) : Q ((tl o).gam) ((tl ρ).gam) (120) (191 / 10 ^ 14) := by
  have g1 := (Q.sci 58351514 true 7 (584 / 10 ^ 2) (by norm_num)).mono (A' := 584 / 10 ^ 2) (δ' := 649 / 10 ^ 18) (by norm_num) (by norm_num)
  have g2 := (Q.sci 19443680 true 10 (195 / 10 ^ 5) (by norm_num)).mono (A' := 195 / 10 ^ 5) (δ' := 217 / 10 ^ 21) (by norm_num) (by norm_num)
  have g3 := (g2.mul (m_day hL h)).mono (A' := 114) (δ' := 189 / 10 ^ 14) (by norm_num) (by norm_num)
  have g4 := (g1.add g3).mono (A' := 120) (δ' := 191 / 10 ^ 14) (by norm_num) (by norm_num)
  exact g4

theorem m_lon (hL : Libm.Faithful) (h : Elements o ρ) : QA ((Arith.atan2 (0.39785416 * (tl o).stem / (tl o).zsinil) ((tl o).zcoshl * (tl o).ctem + 0.91744867 * (tl o).zsinhl * (tl o).stem) + ((tl o).gam - (tl o).xnodce))) ((Arith.atan2 (0.39785416 * (tl ρ).stem / (tl ρ).zsinil) ((tl ρ).zcoshl * (tl ρ).ctem + 0.91744867 * (tl ρ).zsinhl * (tl ρ).stem) + ((tl ρ).gam - (tl ρ).xnodce))) (132) (216 / 10 ^ 13) := by
  have g1 := (Q.sci 39785416 true 8 (398 / 10 ^ 3) (by norm_num)).mono (A' := 398 / 10 ^ 3) (δ' := 442 / 10 ^ 19) (by norm_num) (by norm_num)
  have g2 := (g1.mul (m_stem hL h)).mono (A' := 398 / 10 ^ 3) (δ' := 364 / 10 ^ 15) (by norm_num) (by norm_num)
  have g3 := (g2.div (m_zsinil hL h) (3138 / 10 ^ 4) (127 / 10 ^ 2) zsinil_abs (quot_le (m := 3138 / 10 ^ 4) g2.mag zsinil_abs (by norm_num) (by norm_num))).mono (A' := 127 / 10 ^ 2) (δ' := 198 / 10 ^ 14) (by norm_num) (by norm_num)
  have g4 := ((m_zcoshl hL h).mul (m_ctem hL h)).mono (A' := 1) (δ' := 119 / 10 ^ 14) (by norm_num) (by norm_num)
  have g5 := (Q.sci 91744867 true 8 (918 / 10 ^ 3) (by norm_num)).mono (A' := 918 / 10 ^ 3) (δ' := 102 / 10 ^ 18) (by norm_num) (by norm_num)
  have g6 := (g5.mul (m_zsinhl hL h)).mono (A' := 263 / 10 ^ 3) (δ' := 409 / 10 ^ 15) (by norm_num) (by norm_num)
  have g7 := (g6.mul (m_stem hL h)).mono (A' := 263 / 10 ^ 3) (δ' := 649 / 10 ^ 15) (by norm_num) (by norm_num)
  have g8 := (g4.add g7).mono (A' := 127 / 10 ^ 2) (δ' := 184 / 10 ^ 14) (by norm_num) (by norm_num)
  have g9 := (Q.atan2' hL g3 g8 (41 / 10 ^ 2) (by norm_num) moon_vec (by norm_num)).mono (A' := 32 / 10 ^ 1) (δ' := 187 / 10 ^ 13) (by norm_num) (by norm_num)
  have g10 := ((m_gam hL h).angle).mono (A' := 121) (δ' := 191 / 10 ^ 14) (by norm_num) (by norm_num)
  have g11 := (g10.sub (m_xnodce hL h)).mono (A' := 128) (δ' := 284 / 10 ^ 14) (by norm_num) (by norm_num)
  have g12 := (g9.add g11).mono (A' := 132) (δ' := 216 / 10 ^ 13) (by norm_num) (by norm_num)
  exact g12

theorem m_zcosgl (hL : Libm.Faithful) (h : Elements o ρ) : Q ((tl o).zcosgl) ((tl ρ).zcosgl) (1) (217 / 10 ^ 13) := by
  have g1 := ((m_lon hL h).cos hL).mono (A' := 1) (δ' := 217 / 10 ^ 13) (by norm_num) (by norm_num)
  exact g1

theorem m_zsingl (hL : Libm.Faithful) (h : Elements o ρ) : Q ((tl o).zsingl) ((tl ρ).zsingl) (1) (217 / 10 ^ 13) := by
  have g1 := ((m_lon hL h).sin hL).mono (A' := 1) (δ' := 217 / 10 ^ 13) (by norm_num) (by norm_num)
  exact g1

theorem m_zmol (hL : Libm.Faithful) (h : Elements o ρ) : QA ((ls o).zmol) ((ls ρ).zmol) (63 / 10 ^ 1) (231 / 10 ^ 12) := by
  have g1 := (Q.sci 47199672 true 7 (472 / 10 ^ 2) (by norm_num)).mono (A' := 472 / 10 ^ 2) (δ' := 525 / 10 ^ 18) (by norm_num) (by norm_num)
  have g2 := (Q.sci 22997150 true 8 (23 / 10 ^ 2) (by norm_num)).mono (A' := 23 / 10 ^ 2) (δ' := 256 / 10 ^ 19) (by norm_num) (by norm_num)
  have g3 := (g2.mul (m_day hL h)).mono (A' := 13500) (δ' := 223 / 10 ^ 12) (by norm_num) (by norm_num)
  have g4 := (g3.sub (m_gam hL h)).mono (A' := 13700) (δ' := 227 / 10 ^ 12) (by norm_num) (by norm_num)
  have g5 := (g1.add g4).mono (A' := 13800) (δ' := 229 / 10 ^ 12) (by norm_num) (by norm_num)
  have g6 := (g5.angle).mono (A' := 13900) (δ' := 229 / 10 ^ 12) (by norm_num) (by norm_num)
  have g7 := (g6.remT).mono (A' := 63 / 10 ^ 1) (δ' := 231 / 10 ^ 12) (by norm_num) (by norm_num)
  exact g7

theorem m_zmos (hL : Libm.Faithful) (h : Elements o ρ) : QA ((ls o).zmos) ((ls ρ).zmos) (63 / 10 ^ 1) (171 / 10 ^ 13) := by
  have g1 := (Q.sci 62565837 true 7 (626 / 10 ^ 2) (by norm_num)).mono (A' := 626 / 10 ^ 2) (δ' := 695 / 10 ^ 18) (by norm_num) (by norm_num)
  have g2 := (Q.sci 17201977 true 9 (173 / 10 ^ 4) (by norm_num)).mono (A' := 173 / 10 ^ 4) (δ' := 193 / 10 ^ 20) (by norm_num) (by norm_num)
  have g3 := (g2.mul (m_day hL h)).mono (A' := 1010) (δ' := 168 / 10 ^ 13) (by norm_num) (by norm_num)
  have g4 := (g1.add g3).mono (A' := 1020) (δ' := 17 / 10 ^ 12) (by norm_num) (by norm_num)
  have g5 := (g4.angle).mono (A' := 1030) (δ' := 17 / 10 ^ 12) (by norm_num) (by norm_num)
  have g6 := (g5.remT).mono (A' := 63 / 10 ^ 1) (δ' := 171 / 10 ^ 13) (by norm_num) (by norm_num)
  exact g6

theorem m_snodm (hL : Libm.Faithful) (h : Elements o ρ) : Q ((tq o).snodm) ((tq ρ).snodm) (1) (756 / 10 ^ 17) := by
  have g1 := ((in_node h).angle).mono (A' := 631 / 10 ^ 2) (δ' := 4 / 10 ^ 15) (by norm_num) (by norm_num)
  have g2 := (g1.sin hL).mono (A' := 1) (δ' := 756 / 10 ^ 17) (by norm_num) (by norm_num)
  exact g2

theorem m_cnodm (hL : Libm.Faithful) (h : Elements o ρ) : Q ((tq o).cnodm) ((tq ρ).cnodm) (1) (756 / 10 ^ 17) := by
  have g1 := ((in_node h).angle).mono (A' := 631 / 10 ^ 2) (δ' := 4 / 10 ^ 15) (by norm_num) (by norm_num)
  have g2 := (g1.cos hL).mono (A' := 1) (δ' := 756 / 10 ^ 17) (by norm_num) (by norm_num)
  exact g2

theorem m_sinomm (hL : Libm.Faithful) (h : Elements o ρ) : Q ((tq o).sinomm) ((tq ρ).sinomm) (1) (756 / 10 ^ 17) := by
  have g1 := ((in_argp h).angle).mono (A' := 631 / 10 ^ 2) (δ' := 4 / 10 ^ 15) (by norm_num) (by norm_num)
  have g2 := (g1.sin hL).mono (A' := 1) (δ' := 756 / 10 ^ 17) (by norm_num) (by norm_num)
  exact g2

theorem m_cosomm (hL : Libm.Faithful) (h : Elements o ρ) : Q ((tq o).cosomm) ((tq ρ).cosomm) (1) (756 / 10 ^ 17) := by
  have g1 := ((in_argp h).angle).mono (A' := 631 / 10 ^ 2) (δ' := 4 / 10 ^ 15) (by norm_num) (by norm_num)
  have g2 := (g1.cos hL).mono (A' := 1) (δ' := 756 / 10 ^ 17) (by norm_num) (by norm_num)
  exact g2

theorem m_emsq (hL : Libm.Faithful) (h : Elements o ρ) : Q ((tq o).emsq) ((tq ρ).emsq) (169 / 10 ^ 3) (101 / 10 ^ 18) := by
  have g1 := ((in_ecc h).mul (in_ecc h)).mono (A' := 169 / 10 ^ 3) (δ' := 101 / 10 ^ 18) (by norm_num) (by norm_num)
  exact g1

section
omit [Libm]
theorem node_sq : (tq ρ).cnodm ^ 2 + (tq ρ).snodm ^ 2 = 1 := Real.cos_sq_add_sin_sq _
theorem argp_sq : (tq ρ).cosomm ^ 2 + (tq ρ).sinomm ^ 2 = 1 := Real.cos_sq_add_sin_sq _
theorem incl_sq : (tq ρ).cosim ^ 2 + (tq ρ).sinim ^ 2 = 1 := Real.cos_sq_add_sin_sq _
theorem moonH : (fM ρ).zcosh ^ 2 + (fM ρ).zsinh ^ 2 = 1 := by
  have e1 : (fM ρ).zcosh = (tl ρ).zcoshl * (tq ρ).cnodm + (tl ρ).zsinhl * (tq ρ).snodm := rfl
  have e2 : (fM ρ).zsinh = (tq ρ).snodm * (tl ρ).zcoshl - (tq ρ).cnodm * (tl ρ).zsinhl := rfl
  have h1 := node_sq (ρ := ρ)
  have h2 := zcoshl_sq (ρ := ρ)
  rw [e1, e2]
  linear_combination (tl ρ).zcoshl ^ 2 * h1 + (tl ρ).zsinhl ^ 2 * h1 + h2
theorem sq_le_one {x : ℝ} (h : x ^ 2 ≤ 1) : |x| ≤ 1 := abs_le_one_iff_mul_self_le_one.mpr (by rw [← sq]; exact h)
theorem moon_ch : |(fM ρ).zcosh| ≤ 1 := sq_le_one (by have := moonH (ρ := ρ); have := sq_nonneg (fM ρ).zsinh; linarith)
theorem moon_sh : |(fM ρ).zsinh| ≤ 1 := sq_le_one (by have := moonH (ρ := ρ); have := sq_nonneg (fM ρ).zcosh; linarith)
end

theorem m_zcosh (hL : Libm.Faithful) (h : Elements o ρ) : Q ((fM o).zcosh) ((fM ρ).zcosh) (1) (725 / 10 ^ 15) := by
  have g1 := ((m_zcoshl hL h).mul (m_cnodm hL h)).mono (A' := 1) (δ' := 276 / 10 ^ 15) (by norm_num) (by norm_num)
  have g2 := ((m_zsinhl hL h).mul (m_snodm hL h)).mono (A' := 286 / 10 ^ 3) (δ' := 448 / 10 ^ 15) (by norm_num) (by norm_num)
  have g3 := (g1.add' g2 (1) moon_ch).mono (A' := 1) (δ' := 725 / 10 ^ 15) (by norm_num) (by norm_num)
  exact g3

theorem m_zsinh (hL : Libm.Faithful) (h : Elements o ρ) : Q ((fM o).zsinh) ((fM ρ).zsinh) (1) (725 / 10 ^ 15) := by
  have g1 := ((m_snodm hL h).mul (m_zcoshl hL h)).mono (A' := 1) (δ' := 276 / 10 ^ 15) (by norm_num) (by norm_num)
  have g2 := ((m_cnodm hL h).mul (m_zsinhl hL h)).mono (A' := 286 / 10 ^ 3) (δ' := 448 / 10 ^ 15) (by norm_num) (by norm_num)
  have g3 := (g1.sub' g2 (1) moon_sh).mono (A' := 1) (δ' := 725 / 10 ^ 15) (by norm_num) (by norm_num)
  exact g3

/-- a frame known in doubles, orthonormal to within `10^-4` -/
structure Frame (g i n : ℝ) (b : BodyFrame F64) (β : BodyFrame ℝ) : Prop where
  cg : Q b.zcosg β.zcosg 1 g
  sg : Q b.zsing β.zsing 1 g
  ci : Q b.zcosi β.zcosi 1 i
  si : Q b.zsini β.zsini 1 i
  ch : Q b.zcosh β.zcosh 1 n
  sh : Q b.zsinh β.zsinh 1 n
  ng : β.zcosg ^ 2 + β.zsing ^ 2 ≤ 1 + 1 / 10 ^ 4
  ni : β.zcosi ^ 2 + β.zsini ^ 2 ≤ 1 + 1 / 10 ^ 4
  nh : β.zcosh ^ 2 + β.zsinh ^ 2 = 1
theorem frame_moon (hL : Libm.Faithful) (h : Elements o ρ) : Frame (218 / 10 ^ 13) (22 / 10 ^ 14) (8 / 10 ^ 13) (fM o) (fM ρ) where
  cg := (m_zcosgl hL h).mono le_rfl (by norm_num)
  sg := (m_zsingl hL h).mono le_rfl (by norm_num)
  ci := (m_zcosil hL h).mono (by norm_num) (by norm_num)
  si := (m_zsinil hL h).mono (by norm_num) (by norm_num)
  ch := (m_zcosh hL h).mono le_rfl (by norm_num)
  sh := (m_zsinh hL h).mono le_rfl (by norm_num)
  ng := by
    have : (fM ρ).zcosg ^ 2 + (fM ρ).zsing ^ 2 = 1 := Real.cos_sq_add_sin_sq _
    rw [this]; norm_num
  ni := by
    have : (fM ρ).zcosi ^ 2 + (fM ρ).zsini ^ 2 = 1 := zsinil_sq
    rw [this]; norm_num
  nh := moonH
theorem frame_sun (hL : Libm.Faithful) (h : Elements o ρ) : Frame (1 / 10 ^ 15) (1 / 10 ^ 15) (8 / 10 ^ 15) (fS o) (fS ρ) where
  cg := (Q.sci 1945905 true 7 1 (by norm_num)).mono le_rfl (by norm_num)
  sg := (Q.sci 98088458 true 8 1 (by norm_num)).neg.mono le_rfl (by norm_num)
  ci := (Q.sci 91744867 true 8 1 (by norm_num)).mono le_rfl (by norm_num)
  si := (Q.sci 39785416 true 8 1 (by norm_num)).mono le_rfl (by norm_num)
  ch := (m_cnodm hL h).mono le_rfl (by norm_num)
  sh := (m_snodm hL h).mono le_rfl (by norm_num)
  ng := by
    show (0.1945905 : ℝ) ^ 2 + (-0.98088458) ^ 2 ≤ _
    norm_num
  ni := by
    show (0.91744867 : ℝ) ^ 2 + (0.39785416) ^ 2 ≤ _
    norm_num
  nh := node_sq

variable {g i n : ℝ} {b : BodyFrame F64} {β : BodyFrame ℝ} {y : F64} {υ : ℝ}
section
omit [Libm]
/-- direction cosines in exact arithmetic -/
theorem a_sq (f : Frame g i n b β) : (aCoef (tq ρ) β).a1 ^ 2 + ((aCoef (tq ρ) β).a7 ^ 2 + (aCoef (tq ρ) β).a8 ^ 2) ≤ 1001 / 10 ^ 3 ∧
    (aCoef (tq ρ) β).a3 ^ 2 + ((aCoef (tq ρ) β).a9 ^ 2 + (aCoef (tq ρ) β).a10 ^ 2) ≤ 1001 / 10 ^ 3 ∧
    (aCoef (tq ρ) β).a2 ^ 2 + (aCoef (tq ρ) β).a5 ^ 2 = (aCoef (tq ρ) β).a7 ^ 2 + (aCoef (tq ρ) β).a8 ^ 2 ∧
    (aCoef (tq ρ) β).a4 ^ 2 + (aCoef (tq ρ) β).a6 ^ 2 = (aCoef (tq ρ) β).a9 ^ 2 + (aCoef (tq ρ) β).a10 ^ 2 := by
  have hq := incl_sq (ρ := ρ)
  have ng := f.ng
  have ni := f.ni
  have nh := f.nh
  have e1 : (aCoef (tq ρ) β).a1 = β.zcosg * β.zcosh + β.zsing * β.zcosi * β.zsinh := rfl
  have e3 : (aCoef (tq ρ) β).a3 = -β.zsing * β.zcosh + β.zcosg * β.zcosi * β.zsinh := rfl
  have e7 : (aCoef (tq ρ) β).a7 = -β.zcosg * β.zsinh + β.zsing * β.zcosi * β.zcosh := rfl
  have e8 : (aCoef (tq ρ) β).a8 = β.zsing * β.zsini := rfl
  have e9 : (aCoef (tq ρ) β).a9 = β.zsing * β.zsinh + β.zcosg * β.zcosi * β.zcosh := rfl
  have e10 : (aCoef (tq ρ) β).a10 = β.zcosg * β.zsini := rfl
  have e2 : (aCoef (tq ρ) β).a2 = (tq ρ).cosim * (aCoef (tq ρ) β).a7 + (tq ρ).sinim * (aCoef (tq ρ) β).a8 := rfl
  have e5 : (aCoef (tq ρ) β).a5 = -(tq ρ).sinim * (aCoef (tq ρ) β).a7 + (tq ρ).cosim * (aCoef (tq ρ) β).a8 := rfl
  have e4 : (aCoef (tq ρ) β).a4 = (tq ρ).cosim * (aCoef (tq ρ) β).a9 + (tq ρ).sinim * (aCoef (tq ρ) β).a10 := rfl
  have e6 : (aCoef (tq ρ) β).a6 = -(tq ρ).sinim * (aCoef (tq ρ) β).a9 + (tq ρ).cosim * (aCoef (tq ρ) β).a10 := rfl
  have key : ∀ G S : ℝ, 0 ≤ G → 0 ≤ S → G + S ≤ 1 + 1 / 10 ^ 4 → G + S * (β.zcosi ^ 2 + β.zsini ^ 2) ≤ 1001 / 10 ^ 3 := by
    intro G S hG hS hGS
    have := mul_le_mul_of_nonneg_left ni hS
    norm_num at *; linarith
  refine ⟨?_, ?_, ?_, ?_⟩
  · rw [e1, e7, e8]
    refine le_trans (le_of_eq ?_) (key (β.zcosg ^ 2) (β.zsing ^ 2) (sq_nonneg _) (sq_nonneg _) ng)
    linear_combination (β.zcosg ^ 2 + β.zsing ^ 2 * β.zcosi ^ 2) * nh
  · rw [e3, e9, e10]
    refine le_trans (le_of_eq ?_) (key (β.zsing ^ 2) (β.zcosg ^ 2) (sq_nonneg _) (sq_nonneg _) (by linarith))
    linear_combination (β.zsing ^ 2 + β.zcosg ^ 2 * β.zcosi ^ 2) * nh
  · rw [e2, e5]
    linear_combination ((aCoef (tq ρ) β).a7 ^ 2 + (aCoef (tq ρ) β).a8 ^ 2) * hq
  · rw [e4, e6]
    linear_combination ((aCoef (tq ρ) β).a9 ^ 2 + (aCoef (tq ρ) β).a10 ^ 2) * hq
theorem sq_small {x : ℝ} (h : x ^ 2 ≤ 1001 / 10 ^ 3) : |x| ≤ 1001 / 10 ^ 3 := abs_le_of_sq_le_sq (h.trans (by norm_num)) (by norm_num)
/-- sizes of the direction cosines -/
theorem a_sizes (f : Frame g i n b β) : |(aCoef (tq ρ) β).a1| ≤ 1001 / 10 ^ 3 ∧ |(aCoef (tq ρ) β).a2| ≤ 1001 / 10 ^ 3 ∧ |(aCoef (tq ρ) β).a3| ≤ 1001 / 10 ^ 3 ∧
    |(aCoef (tq ρ) β).a4| ≤ 1001 / 10 ^ 3 ∧ |(aCoef (tq ρ) β).a5| ≤ 1001 / 10 ^ 3 ∧ |(aCoef (tq ρ) β).a6| ≤ 1001 / 10 ^ 3 ∧
    |(aCoef (tq ρ) β).a7| ≤ 1001 / 10 ^ 3 ∧ |(aCoef (tq ρ) β).a9| ≤ 1001 / 10 ^ 3 := by
  obtain ⟨h1, h2, h3, h4⟩ := a_sq (ρ := ρ) f
  have s1 := sq_nonneg (aCoef (tq ρ) β).a1
  have s2 := sq_nonneg (aCoef (tq ρ) β).a2
  have s3 := sq_nonneg (aCoef (tq ρ) β).a3
  have s4 := sq_nonneg (aCoef (tq ρ) β).a4
  have s5 := sq_nonneg (aCoef (tq ρ) β).a5
  have s6 := sq_nonneg (aCoef (tq ρ) β).a6
  have s7 := sq_nonneg (aCoef (tq ρ) β).a7
  have s8 := sq_nonneg (aCoef (tq ρ) β).a8
  have s9 := sq_nonneg (aCoef (tq ρ) β).a9
  have s10 := sq_nonneg (aCoef (tq ρ) β).a10
  refine ⟨?_, ?_, ?_, ?_, ?_, ?_, ?_, ?_⟩ <;> apply sq_small <;> linarith
/-- the coefficients `x1 .. x4` are a rotation of `a1 .. a4` -/
theorem x_sq (f : Frame g i n b β) : (xCoef (tq ρ) (aCoef (tq ρ) β)).x1 ^ 2 + (xCoef (tq ρ) (aCoef (tq ρ) β)).x3 ^ 2 ≤ 1001 / 10 ^ 3 ∧
    (xCoef (tq ρ) (aCoef (tq ρ) β)).x2 ^ 2 + (xCoef (tq ρ) (aCoef (tq ρ) β)).x4 ^ 2 ≤ 1001 / 10 ^ 3 := by
  obtain ⟨h1, h2, h3, h4⟩ := a_sq (ρ := ρ) f
  have hq := argp_sq (ρ := ρ)
  generalize aCoef (tq ρ) β = a at *
  have e1 : (xCoef (tq ρ) a).x1 = a.a1 * (tq ρ).cosomm + a.a2 * (tq ρ).sinomm := rfl
  have e2 : (xCoef (tq ρ) a).x2 = a.a3 * (tq ρ).cosomm + a.a4 * (tq ρ).sinomm := rfl
  have e3 : (xCoef (tq ρ) a).x3 = -a.a1 * (tq ρ).sinomm + a.a2 * (tq ρ).cosomm := rfl
  have e4 : (xCoef (tq ρ) a).x4 = -a.a3 * (tq ρ).sinomm + a.a4 * (tq ρ).cosomm := rfl
  have t1 : (xCoef (tq ρ) a).x1 ^ 2 + (xCoef (tq ρ) a).x3 ^ 2 = a.a1 ^ 2 + a.a2 ^ 2 := by
    rw [e1, e3]; linear_combination (a.a1 ^ 2 + a.a2 ^ 2) * hq
  have t2 : (xCoef (tq ρ) a).x2 ^ 2 + (xCoef (tq ρ) a).x4 ^ 2 = a.a3 ^ 2 + a.a4 ^ 2 := by
    rw [e2, e4]; linear_combination (a.a3 ^ 2 + a.a4 ^ 2) * hq
  rw [t1, t2]
  have s5 := sq_nonneg a.a5
  have s6 := sq_nonneg a.a6
  constructor <;> linarith
theorem x_sizes (f : Frame g i n b β) : |(xCoef (tq ρ) (aCoef (tq ρ) β)).x1| ≤ 1001 / 10 ^ 3 ∧ |(xCoef (tq ρ) (aCoef (tq ρ) β)).x2| ≤ 1001 / 10 ^ 3 ∧
    |(xCoef (tq ρ) (aCoef (tq ρ) β)).x3| ≤ 1001 / 10 ^ 3 ∧ |(xCoef (tq ρ) (aCoef (tq ρ) β)).x4| ≤ 1001 / 10 ^ 3 := by
  obtain ⟨h1, h2⟩ := x_sq (ρ := ρ) f
  have s1 := sq_nonneg (xCoef (tq ρ) (aCoef (tq ρ) β)).x1
  have s2 := sq_nonneg (xCoef (tq ρ) (aCoef (tq ρ) β)).x2
  have s3 := sq_nonneg (xCoef (tq ρ) (aCoef (tq ρ) β)).x3
  have s4 := sq_nonneg (xCoef (tq ρ) (aCoef (tq ρ) β)).x4
  refine ⟨?_, ?_, ?_, ?_⟩ <;> apply sq_small <;> linarith
theorem s_sizes (f : Frame g i n b β) : |(pass (tq ρ) β υ).s5| ≤ 1001 / 10 ^ 3 ∧ |(pass (tq ρ) β υ).s6| ≤ 1001 / 10 ^ 3 ∧ |(pass (tq ρ) β υ).s7| ≤ 1001 / 10 ^ 3 := by
  obtain ⟨h1, h2⟩ := x_sq (ρ := ρ) f
  have e5 : (pass (tq ρ) β υ).s5 = (xCoef (tq ρ) (aCoef (tq ρ) β)).x1 * (xCoef (tq ρ) (aCoef (tq ρ) β)).x3 +
    (xCoef (tq ρ) (aCoef (tq ρ) β)).x2 * (xCoef (tq ρ) (aCoef (tq ρ) β)).x4 := rfl
  have e6 : (pass (tq ρ) β υ).s6 = (xCoef (tq ρ) (aCoef (tq ρ) β)).x2 * (xCoef (tq ρ) (aCoef (tq ρ) β)).x3 +
    (xCoef (tq ρ) (aCoef (tq ρ) β)).x1 * (xCoef (tq ρ) (aCoef (tq ρ) β)).x4 := rfl
  have e7 : (pass (tq ρ) β υ).s7 = (xCoef (tq ρ) (aCoef (tq ρ) β)).x2 * (xCoef (tq ρ) (aCoef (tq ρ) β)).x4 -
    (xCoef (tq ρ) (aCoef (tq ρ) β)).x1 * (xCoef (tq ρ) (aCoef (tq ρ) β)).x3 := rfl
  rw [e5, e6, e7]
  generalize xCoef (tq ρ) (aCoef (tq ρ) β) = x at *
  refine ⟨?_, ?_, ?_⟩ <;> rw [abs_le] <;> constructor <;>
    nlinarith [sq_nonneg (x.x1 + x.x3), sq_nonneg (x.x1 - x.x3), sq_nonneg (x.x2 + x.x4), sq_nonneg (x.x2 - x.x4),
      sq_nonneg (x.x2 + x.x3), sq_nonneg (x.x2 - x.x3), sq_nonneg (x.x1 + x.x4), sq_nonneg (x.x1 - x.x4)]
end

theorem fS_a1 (hL : Libm.Faithful) (h : Elements o ρ) (f : Frame (1 / 10 ^ 15) (1 / 10 ^ 15) (8 / 10 ^ 15) b β) : Q ((aCoef (tq o) b).a1) ((aCoef (tq ρ) β).a1) (101 / 10 ^ 2) (196 / 10 ^ 16) := by
  have g1 := (f.cg.mul f.ch).mono (A' := 1) (δ' := 912 / 10 ^ 17) (by norm_num) (by norm_num)
  have g2 := (f.sg.mul f.ci).mono (A' := 1) (δ' := 212 / 10 ^ 17) (by norm_num) (by norm_num)
  have g3 := (g2.mul f.sh).mono (A' := 1) (δ' := 103 / 10 ^ 16) (by norm_num) (by norm_num)
  have g4 := (g1.add' g3 (1001 / 10 ^ 3) (a_sizes (ρ := ρ) f).1).mono (A' := 101 / 10 ^ 2) (δ' := 196 / 10 ^ 16) (by norm_num) (by norm_num)
  exact g4

theorem fS_a3 (hL : Libm.Faithful) (h : Elements o ρ) (f : Frame (1 / 10 ^ 15) (1 / 10 ^ 15) (8 / 10 ^ 15) b β) : Q ((aCoef (tq o) b).a3) ((aCoef (tq ρ) β).a3) (101 / 10 ^ 2) (196 / 10 ^ 16) := by
  have g1 := (f.sg.neg).mono (A' := 1) (δ' := 1 / 10 ^ 15) (by norm_num) (by norm_num)
  have g2 := (g1.mul f.ch).mono (A' := 1) (δ' := 912 / 10 ^ 17) (by norm_num) (by norm_num)
  have g3 := (f.cg.mul f.ci).mono (A' := 1) (δ' := 212 / 10 ^ 17) (by norm_num) (by norm_num)
  have g4 := (g3.mul f.sh).mono (A' := 1) (δ' := 103 / 10 ^ 16) (by norm_num) (by norm_num)
  have g5 := (g2.add' g4 (1001 / 10 ^ 3) (a_sizes (ρ := ρ) f).2.2.1).mono (A' := 101 / 10 ^ 2) (δ' := 196 / 10 ^ 16) (by norm_num) (by norm_num)
  exact g5

theorem fS_a7 (hL : Libm.Faithful) (h : Elements o ρ) (f : Frame (1 / 10 ^ 15) (1 / 10 ^ 15) (8 / 10 ^ 15) b β) : Q ((aCoef (tq o) b).a7) ((aCoef (tq ρ) β).a7) (101 / 10 ^ 2) (196 / 10 ^ 16) := by
  have g1 := (f.cg.neg).mono (A' := 1) (δ' := 1 / 10 ^ 15) (by norm_num) (by norm_num)
  have g2 := (g1.mul f.sh).mono (A' := 1) (δ' := 912 / 10 ^ 17) (by norm_num) (by norm_num)
  have g3 := (f.sg.mul f.ci).mono (A' := 1) (δ' := 212 / 10 ^ 17) (by norm_num) (by norm_num)
  have g4 := (g3.mul f.ch).mono (A' := 1) (δ' := 103 / 10 ^ 16) (by norm_num) (by norm_num)
  have g5 := (g2.add' g4 (1001 / 10 ^ 3) (a_sizes (ρ := ρ) f).2.2.2.2.2.2.1).mono (A' := 101 / 10 ^ 2) (δ' := 196 / 10 ^ 16) (by norm_num) (by norm_num)
  exact g5

theorem fS_a8 (hL : Libm.Faithful) (h : Elements o ρ) (f : Frame (1 / 10 ^ 15) (1 / 10 ^ 15) (8 / 10 ^ 15) b β) : Q ((aCoef (tq o) b).a8) ((aCoef (tq ρ) β).a8) (1) (212 / 10 ^ 17) := by
  have g1 := (f.sg.mul f.si).mono (A' := 1) (δ' := 212 / 10 ^ 17) (by norm_num) (by norm_num)
  exact g1

theorem fS_a9 (hL : Libm.Faithful) (h : Elements o ρ) (f : Frame (1 / 10 ^ 15) (1 / 10 ^ 15) (8 / 10 ^ 15) b β) : Q ((aCoef (tq o) b).a9) ((aCoef (tq ρ) β).a9) (101 / 10 ^ 2) (196 / 10 ^ 16) := by
  have g1 := (f.sg.mul f.sh).mono (A' := 1) (δ' := 912 / 10 ^ 17) (by norm_num) (by norm_num)
  have g2 := (f.cg.mul f.ci).mono (A' := 1) (δ' := 212 / 10 ^ 17) (by norm_num) (by norm_num)
  have g3 := (g2.mul f.ch).mono (A' := 1) (δ' := 103 / 10 ^ 16) (by norm_num) (by norm_num)
  have g4 := (g1.add' g3 (1001 / 10 ^ 3) (a_sizes (ρ := ρ) f).2.2.2.2.2.2.2).mono (A' := 101 / 10 ^ 2) (δ' := 196 / 10 ^ 16) (by norm_num) (by norm_num)
  exact g4

theorem fS_a10 (hL : Libm.Faithful) (h : Elements o ρ) (f : Frame (1 / 10 ^ 15) (1 / 10 ^ 15) (8 / 10 ^ 15) b β) : Q ((aCoef (tq o) b).a10) ((aCoef (tq ρ) β).a10) (1) (212 / 10 ^ 17) := by
  have g1 := (f.cg.mul f.si).mono (A' := 1) (δ' := 212 / 10 ^ 17) (by norm_num) (by norm_num)
  exact g1

theorem fS_a2 (hL : Libm.Faithful) (h : Elements o ρ) (f : Frame (1 / 10 ^ 15) (1 / 10 ^ 15) (8 / 10 ^ 15) b β) : Q ((aCoef (tq o) b).a2) ((aCoef (tq ρ) β).a2) (101 / 10 ^ 2) (334 / 10 ^ 16) := by
  have g1 := ((i_ci hL h).mul (fS_a7 hL h f)).mono (A' := 101 / 10 ^ 2) (δ' := 254 / 10 ^ 16) (by norm_num) (by norm_num)
  have g2 := ((i_si hL h).mul (fS_a8 hL h f)).mono (A' := 1) (δ' := 78 / 10 ^ 16) (by norm_num) (by norm_num)
  have g3 := (g1.add' g2 (1001 / 10 ^ 3) (a_sizes (ρ := ρ) f).2.1).mono (A' := 101 / 10 ^ 2) (δ' := 334 / 10 ^ 16) (by norm_num) (by norm_num)
  exact g3

theorem fS_a4 (hL : Libm.Faithful) (h : Elements o ρ) (f : Frame (1 / 10 ^ 15) (1 / 10 ^ 15) (8 / 10 ^ 15) b β) : Q ((aCoef (tq o) b).a4) ((aCoef (tq ρ) β).a4) (101 / 10 ^ 2) (334 / 10 ^ 16) := by
  have g1 := ((i_ci hL h).mul (fS_a9 hL h f)).mono (A' := 101 / 10 ^ 2) (δ' := 254 / 10 ^ 16) (by norm_num) (by norm_num)
  have g2 := ((i_si hL h).mul (fS_a10 hL h f)).mono (A' := 1) (δ' := 78 / 10 ^ 16) (by norm_num) (by norm_num)
  have g3 := (g1.add' g2 (1001 / 10 ^ 3) (a_sizes (ρ := ρ) f).2.2.2.1).mono (A' := 101 / 10 ^ 2) (δ' := 334 / 10 ^ 16) (by norm_num) (by norm_num)
  exact g3

theorem fS_a5 (hL : Libm.Faithful) (h : Elements o ρ) (f : Frame (1 / 10 ^ 15) (1 / 10 ^ 15) (8 / 10 ^ 15) b β) : Q ((aCoef (tq o) b).a5) ((aCoef (tq ρ) β).a5) (101 / 10 ^ 2) (334 / 10 ^ 16) := by
  have g1 := ((i_si hL h).neg).mono (A' := 1) (δ' := 556 / 10 ^ 17) (by norm_num) (by norm_num)
  have g2 := (g1.mul (fS_a7 hL h f)).mono (A' := 101 / 10 ^ 2) (δ' := 254 / 10 ^ 16) (by norm_num) (by norm_num)
  have g3 := ((i_ci hL h).mul (fS_a8 hL h f)).mono (A' := 1) (δ' := 78 / 10 ^ 16) (by norm_num) (by norm_num)
  have g4 := (g2.add' g3 (1001 / 10 ^ 3) (a_sizes (ρ := ρ) f).2.2.2.2.1).mono (A' := 101 / 10 ^ 2) (δ' := 334 / 10 ^ 16) (by norm_num) (by norm_num)
  exact g4

theorem fS_a6 (hL : Libm.Faithful) (h : Elements o ρ) (f : Frame (1 / 10 ^ 15) (1 / 10 ^ 15) (8 / 10 ^ 15) b β) : Q ((aCoef (tq o) b).a6) ((aCoef (tq ρ) β).a6) (101 / 10 ^ 2) (334 / 10 ^ 16) := by
  have g1 := ((i_si hL h).neg).mono (A' := 1) (δ' := 556 / 10 ^ 17) (by norm_num) (by norm_num)
  have g2 := (g1.mul (fS_a9 hL h f)).mono (A' := 101 / 10 ^ 2) (δ' := 254 / 10 ^ 16) (by norm_num) (by norm_num)
  have g3 := ((i_ci hL h).mul (fS_a10 hL h f)).mono (A' := 1) (δ' := 78 / 10 ^ 16) (by norm_num) (by norm_num)
  have g4 := (g2.add' g3 (1001 / 10 ^ 3) (a_sizes (ρ := ρ) f).2.2.2.2.2.1).mono (A' := 101 / 10 ^ 2) (δ' := 334 / 10 ^ 16) (by norm_num) (by norm_num)
  exact g4

theorem fS_x1 (hL : Libm.Faithful) (h : Elements o ρ) (f : Frame (1 / 10 ^ 15) (1 / 10 ^ 15) (8 / 10 ^ 15) b β) : Q ((xCoef (tq o) (aCoef (tq o) b)).x1) ((xCoef (tq ρ) (aCoef (tq ρ) β)).x1) (101 / 10 ^ 2) (688 / 10 ^ 16) := by
  have g1 := ((fS_a1 hL h f).mul (m_cosomm hL h)).mono (A' := 101 / 10 ^ 2) (δ' := 274 / 10 ^ 16) (by norm_num) (by norm_num)
  have g2 := ((fS_a2 hL h f).mul (m_sinomm hL h)).mono (A' := 101 / 10 ^ 2) (δ' := 412 / 10 ^ 16) (by norm_num) (by norm_num)
  have g3 := (g1.add' g2 (1001 / 10 ^ 3) (x_sizes (ρ := ρ) f).1).mono (A' := 101 / 10 ^ 2) (δ' := 688 / 10 ^ 16) (by norm_num) (by norm_num)
  exact g3

theorem fS_x2 (hL : Libm.Faithful) (h : Elements o ρ) (f : Frame (1 / 10 ^ 15) (1 / 10 ^ 15) (8 / 10 ^ 15) b β) : Q ((xCoef (tq o) (aCoef (tq o) b)).x2) ((xCoef (tq ρ) (aCoef (tq ρ) β)).x2) (101 / 10 ^ 2) (688 / 10 ^ 16) := by
  have g1 := ((fS_a3 hL h f).mul (m_cosomm hL h)).mono (A' := 101 / 10 ^ 2) (δ' := 274 / 10 ^ 16) (by norm_num) (by norm_num)
  have g2 := ((fS_a4 hL h f).mul (m_sinomm hL h)).mono (A' := 101 / 10 ^ 2) (δ' := 412 / 10 ^ 16) (by norm_num) (by norm_num)
  have g3 := (g1.add' g2 (1001 / 10 ^ 3) (x_sizes (ρ := ρ) f).2.1).mono (A' := 101 / 10 ^ 2) (δ' := 688 / 10 ^ 16) (by norm_num) (by norm_num)
  exact g3

theorem fS_x3 (hL : Libm.Faithful) (h : Elements o ρ) (f : Frame (1 / 10 ^ 15) (1 / 10 ^ 15) (8 / 10 ^ 15) b β) : Q ((xCoef (tq o) (aCoef (tq o) b)).x3) ((xCoef (tq ρ) (aCoef (tq ρ) β)).x3) (101 / 10 ^ 2) (688 / 10 ^ 16) := by
  have g1 := ((fS_a1 hL h f).neg).mono (A' := 101 / 10 ^ 2) (δ' := 196 / 10 ^ 16) (by norm_num) (by norm_num)
  have g2 := (g1.mul (m_sinomm hL h)).mono (A' := 101 / 10 ^ 2) (δ' := 274 / 10 ^ 16) (by norm_num) (by norm_num)
  have g3 := ((fS_a2 hL h f).mul (m_cosomm hL h)).mono (A' := 101 / 10 ^ 2) (δ' := 412 / 10 ^ 16) (by norm_num) (by norm_num)
  have g4 := (g2.add' g3 (1001 / 10 ^ 3) (x_sizes (ρ := ρ) f).2.2.1).mono (A' := 101 / 10 ^ 2) (δ' := 688 / 10 ^ 16) (by norm_num) (by norm_num)
  exact g4

theorem fS_x4 (hL : Libm.Faithful) (h : Elements o ρ) (f : Frame (1 / 10 ^ 15) (1 / 10 ^ 15) (8 / 10 ^ 15) b β) : Q ((xCoef (tq o) (aCoef (tq o) b)).x4) ((xCoef (tq ρ) (aCoef (tq ρ) β)).x4) (101 / 10 ^ 2) (688 / 10 ^ 16) := by
  have g1 := ((fS_a3 hL h f).neg).mono (A' := 101 / 10 ^ 2) (δ' := 196 / 10 ^ 16) (by norm_num) (by norm_num)
  have g2 := (g1.mul (m_sinomm hL h)).mono (A' := 101 / 10 ^ 2) (δ' := 274 / 10 ^ 16) (by norm_num) (by norm_num)
  have g3 := ((fS_a4 hL h f).mul (m_cosomm hL h)).mono (A' := 101 / 10 ^ 2) (δ' := 412 / 10 ^ 16) (by norm_num) (by norm_num)
  have g4 := (g2.add' g3 (1001 / 10 ^ 3) (x_sizes (ρ := ρ) f).2.2.2).mono (A' := 101 / 10 ^ 2) (δ' := 688 / 10 ^ 16) (by norm_num) (by norm_num)
  exact g4

theorem fS_x5 (hL : Libm.Faithful) (h : Elements o ρ) (f : Frame (1 / 10 ^ 15) (1 / 10 ^ 15) (8 / 10 ^ 15) b β) : Q ((xCoef (tq o) (aCoef (tq o) b)).x5) ((xCoef (tq ρ) (aCoef (tq ρ) β)).x5) (101 / 10 ^ 2) (412 / 10 ^ 16) := by
  have g1 := ((fS_a5 hL h f).mul (m_sinomm hL h)).mono (A' := 101 / 10 ^ 2) (δ' := 412 / 10 ^ 16) (by norm_num) (by norm_num)
  exact g1

theorem fS_x6 (hL : Libm.Faithful) (h : Elements o ρ) (f : Frame (1 / 10 ^ 15) (1 / 10 ^ 15) (8 / 10 ^ 15) b β) : Q ((xCoef (tq o) (aCoef (tq o) b)).x6) ((xCoef (tq ρ) (aCoef (tq ρ) β)).x6) (101 / 10 ^ 2) (412 / 10 ^ 16) := by
  have g1 := ((fS_a6 hL h f).mul (m_sinomm hL h)).mono (A' := 101 / 10 ^ 2) (δ' := 412 / 10 ^ 16) (by norm_num) (by norm_num)
  exact g1

theorem fS_x7 (hL : Libm.Faithful) (h : Elements o ρ) (f : Frame (1 / 10 ^ 15) (1 / 10 ^ 15) (8 / 10 ^ 15) b β) : Q ((xCoef (tq o) (aCoef (tq o) b)).x7) ((xCoef (tq ρ) (aCoef (tq ρ) β)).x7) (101 / 10 ^ 2) (412 / 10 ^ 16) := by
  have g1 := ((fS_a5 hL h f).mul (m_cosomm hL h)).mono (A' := 101 / 10 ^ 2) (δ' := 412 / 10 ^ 16) (by norm_num) (by norm_num)
  exact g1

theorem fS_x8 (hL : Libm.Faithful) (h : Elements o ρ) (f : Frame (1 / 10 ^ 15) (1 / 10 ^ 15) (8 / 10 ^ 15) b β) : Q ((xCoef (tq o) (aCoef (tq o) b)).x8) ((xCoef (tq ρ) (aCoef (tq ρ) β)).x8) (101 / 10 ^ 2) (412 / 10 ^ 16) := by
  have g1 := ((fS_a6 hL h f).mul (m_cosomm hL h)).mono (A' := 101 / 10 ^ 2) (δ' := 412 / 10 ^ 16) (by norm_num) (by norm_num)
  exact g1

theorem fS_s5 (hL : Libm.Faithful) (h : Elements o ρ) (f : Frame (1 / 10 ^ 15) (1 / 10 ^ 15) (8 / 10 ^ 15) b β) : Q ((pass (tq o) b y).s5) ((pass (tq ρ) β υ).s5) (101 / 10 ^ 2) (281 / 10 ^ 15) := by
  have g1 := ((fS_x1 hL h f).mul (fS_x3 hL h f)).mono (A' := 103 / 10 ^ 2) (δ' := 14 / 10 ^ 14) (by norm_num) (by norm_num)
  have g2 := ((fS_x2 hL h f).mul (fS_x4 hL h f)).mono (A' := 103 / 10 ^ 2) (δ' := 14 / 10 ^ 14) (by norm_num) (by norm_num)
  have g3 := (g1.add' g2 (1001 / 10 ^ 3) (s_sizes (ρ := ρ) (υ := υ) f).1).mono (A' := 101 / 10 ^ 2) (δ' := 281 / 10 ^ 15) (by norm_num) (by norm_num)
  exact g3

theorem fS_s6 (hL : Libm.Faithful) (h : Elements o ρ) (f : Frame (1 / 10 ^ 15) (1 / 10 ^ 15) (8 / 10 ^ 15) b β) : Q ((pass (tq o) b y).s6) ((pass (tq ρ) β υ).s6) (101 / 10 ^ 2) (281 / 10 ^ 15) := by
  have g1 := ((fS_x2 hL h f).mul (fS_x3 hL h f)).mono (A' := 103 / 10 ^ 2) (δ' := 14 / 10 ^ 14) (by norm_num) (by norm_num)
  have g2 := ((fS_x1 hL h f).mul (fS_x4 hL h f)).mono (A' := 103 / 10 ^ 2) (δ' := 14 / 10 ^ 14) (by norm_num) (by norm_num)
  have g3 := (g1.add' g2 (1001 / 10 ^ 3) (s_sizes (ρ := ρ) (υ := υ) f).2.1).mono (A' := 101 / 10 ^ 2) (δ' := 281 / 10 ^ 15) (by norm_num) (by norm_num)
  exact g3

theorem fS_s7 (hL : Libm.Faithful) (h : Elements o ρ) (f : Frame (1 / 10 ^ 15) (1 / 10 ^ 15) (8 / 10 ^ 15) b β) : Q ((pass (tq o) b y).s7) ((pass (tq ρ) β υ).s7) (101 / 10 ^ 2) (281 / 10 ^ 15) := by
  have g1 := ((fS_x2 hL h f).mul (fS_x4 hL h f)).mono (A' := 103 / 10 ^ 2) (δ' := 14 / 10 ^ 14) (by norm_num) (by norm_num)
  have g2 := ((fS_x1 hL h f).mul (fS_x3 hL h f)).mono (A' := 103 / 10 ^ 2) (δ' := 14 / 10 ^ 14) (by norm_num) (by norm_num)
  have g3 := (g1.sub' g2 (1001 / 10 ^ 3) (s_sizes (ρ := ρ) (υ := υ) f).2.2).mono (A' := 101 / 10 ^ 2) (δ' := 281 / 10 ^ 15) (by norm_num) (by norm_num)
  exact g3

theorem fS_z11 (hL : Libm.Faithful) (h : Elements o ρ) (f : Frame (1 / 10 ^ 15) (1 / 10 ^ 15) (8 / 10 ^ 15) b β) : Q ((pass (tq o) b y).z11) ((pass (tq ρ) β υ).z11) (114 / 10 ^ 1) (9 / 10 ^ 13) := by
  have g1 := (Q.int 60 true 1 6 (by norm_num)).mono (A' := 6) (δ' := 0) (by norm_num) le_rfl
  have g2 := (g1.neg).mono (A' := 6) (δ' := 0) (by norm_num) (by norm_num)
  have g3 := (Q.int 240 true 1 24 (by norm_num)).mono (A' := 24) (δ' := 0) (by norm_num) le_rfl
  have g4 := (g3.neg).mono (A' := 24) (δ' := 0) (by norm_num) (by norm_num)
  have g5 := (g2.mul (fS_a1 hL h f)).mono (A' := 606 / 10 ^ 2) (δ' := 119 / 10 ^ 15) (by norm_num) (by norm_num)
  have g6 := (g5.mul (fS_a5 hL h f)).mono (A' := 613 / 10 ^ 2) (δ' := 324 / 10 ^ 15) (by norm_num) (by norm_num)
  have g7 := (g4.mul (fS_x1 hL h f)).mono (A' := 243 / 10 ^ 1) (δ' := 166 / 10 ^ 14) (by norm_num) (by norm_num)
  have g8 := (g7.mul (fS_x7 hL h f)).mono (A' := 246 / 10 ^ 1) (δ' := 269 / 10 ^ 14) (by norm_num) (by norm_num)
  have g9 := (g1.mul (fS_x3 hL h f)).mono (A' := 606 / 10 ^ 2) (δ' := 414 / 10 ^ 15) (by norm_num) (by norm_num)
  have g10 := (g9.mul (fS_x5 hL h f)).mono (A' := 613 / 10 ^ 2) (δ' := 669 / 10 ^ 15) (by norm_num) (by norm_num)
  have g11 := (g8.sub g10).mono (A' := 308 / 10 ^ 1) (δ' := 337 / 10 ^ 14) (by norm_num) (by norm_num)
  have g12 := ((m_emsq hL h).mul g11).mono (A' := 521 / 10 ^ 2) (δ' := 574 / 10 ^ 15) (by norm_num) (by norm_num)
  have g13 := (g6.add g12).mono (A' := 114 / 10 ^ 1) (δ' := 9 / 10 ^ 13) (by norm_num) (by norm_num)
  exact g13

theorem fS_z13 (hL : Libm.Faithful) (h : Elements o ρ) (f : Frame (1 / 10 ^ 15) (1 / 10 ^ 15) (8 / 10 ^ 15) b β) : Q ((pass (tq o) b y).z13) ((pass (tq ρ) β υ).z13) (114 / 10 ^ 1) (9 / 10 ^ 13) := by
  have g1 := (Q.int 60 true 1 6 (by norm_num)).mono (A' := 6) (δ' := 0) (by norm_num) le_rfl
  have g2 := (g1.neg).mono (A' := 6) (δ' := 0) (by norm_num) (by norm_num)
  have g3 := (Q.int 240 true 1 24 (by norm_num)).mono (A' := 24) (δ' := 0) (by norm_num) le_rfl
  have g4 := (g3.neg).mono (A' := 24) (δ' := 0) (by norm_num) (by norm_num)
  have g5 := (g2.mul (fS_a3 hL h f)).mono (A' := 606 / 10 ^ 2) (δ' := 119 / 10 ^ 15) (by norm_num) (by norm_num)
  have g6 := (g5.mul (fS_a6 hL h f)).mono (A' := 613 / 10 ^ 2) (δ' := 324 / 10 ^ 15) (by norm_num) (by norm_num)
  have g7 := (g4.mul (fS_x2 hL h f)).mono (A' := 243 / 10 ^ 1) (δ' := 166 / 10 ^ 14) (by norm_num) (by norm_num)
  have g8 := (g7.mul (fS_x8 hL h f)).mono (A' := 246 / 10 ^ 1) (δ' := 269 / 10 ^ 14) (by norm_num) (by norm_num)
  have g9 := (g1.mul (fS_x4 hL h f)).mono (A' := 606 / 10 ^ 2) (δ' := 414 / 10 ^ 15) (by norm_num) (by norm_num)
  have g10 := (g9.mul (fS_x6 hL h f)).mono (A' := 613 / 10 ^ 2) (δ' := 669 / 10 ^ 15) (by norm_num) (by norm_num)
  have g11 := (g8.sub g10).mono (A' := 308 / 10 ^ 1) (δ' := 337 / 10 ^ 14) (by norm_num) (by norm_num)
  have g12 := ((m_emsq hL h).mul g11).mono (A' := 521 / 10 ^ 2) (δ' := 574 / 10 ^ 15) (by norm_num) (by norm_num)
  have g13 := (g6.add g12).mono (A' := 114 / 10 ^ 1) (δ' := 9 / 10 ^ 13) (by norm_num) (by norm_num)
  exact g13

theorem fS_z12 (hL : Libm.Faithful) (h : Elements o ρ) (f : Frame (1 / 10 ^ 15) (1 / 10 ^ 15) (8 / 10 ^ 15) b β) : Q ((pass (tq o) b y).z12) ((pass (tq ρ) β υ).z12) (229 / 10 ^ 1) (182 / 10 ^ 14) := by
  have g1 := (Q.int 60 true 1 6 (by norm_num)).mono (A' := 6) (δ' := 0) (by norm_num) le_rfl
  have g2 := (g1.neg).mono (A' := 6) (δ' := 0) (by norm_num) (by norm_num)
  have g3 := (Q.int 240 true 1 24 (by norm_num)).mono (A' := 24) (δ' := 0) (by norm_num) le_rfl
  have g4 := (g3.neg).mono (A' := 24) (δ' := 0) (by norm_num) (by norm_num)
  have g5 := ((fS_a1 hL h f).mul (fS_a6 hL h f)).mono (A' := 103 / 10 ^ 2) (δ' := 537 / 10 ^ 16) (by norm_num) (by norm_num)
  have g6 := ((fS_a3 hL h f).mul (fS_a5 hL h f)).mono (A' := 103 / 10 ^ 2) (δ' := 537 / 10 ^ 16) (by norm_num) (by norm_num)
  have g7 := (g5.add g6).mono (A' := 206 / 10 ^ 2) (δ' := 108 / 10 ^ 15) (by norm_num) (by norm_num)
  have g8 := (g2.mul g7).mono (A' := 124 / 10 ^ 1) (δ' := 65 / 10 ^ 14) (by norm_num) (by norm_num)
  have g9 := ((fS_x2 hL h f).mul (fS_x7 hL h f)).mono (A' := 103 / 10 ^ 2) (δ' := 112 / 10 ^ 15) (by norm_num) (by norm_num)
  have g10 := ((fS_x1 hL h f).mul (fS_x8 hL h f)).mono (A' := 103 / 10 ^ 2) (δ' := 112 / 10 ^ 15) (by norm_num) (by norm_num)
  have g11 := (g9.add g10).mono (A' := 206 / 10 ^ 2) (δ' := 225 / 10 ^ 15) (by norm_num) (by norm_num)
  have g12 := (g4.mul g11).mono (A' := 495 / 10 ^ 1) (δ' := 541 / 10 ^ 14) (by norm_num) (by norm_num)
  have g13 := ((fS_x3 hL h f).mul (fS_x6 hL h f)).mono (A' := 103 / 10 ^ 2) (δ' := 112 / 10 ^ 15) (by norm_num) (by norm_num)
  have g14 := ((fS_x4 hL h f).mul (fS_x5 hL h f)).mono (A' := 103 / 10 ^ 2) (δ' := 112 / 10 ^ 15) (by norm_num) (by norm_num)
  have g15 := (g13.add g14).mono (A' := 206 / 10 ^ 2) (δ' := 225 / 10 ^ 15) (by norm_num) (by norm_num)
  have g16 := (g2.mul g15).mono (A' := 124 / 10 ^ 1) (δ' := 136 / 10 ^ 14) (by norm_num) (by norm_num)
  have g17 := (g12.add g16).mono (A' := 619 / 10 ^ 1) (δ' := 678 / 10 ^ 14) (by norm_num) (by norm_num)
  have g18 := ((m_emsq hL h).mul g17).mono (A' := 105 / 10 ^ 1) (δ' := 116 / 10 ^ 14) (by norm_num) (by norm_num)
  have g19 := (g8.add g18).mono (A' := 229 / 10 ^ 1) (δ' := 182 / 10 ^ 14) (by norm_num) (by norm_num)
  exact g19

theorem fM_a1 (hL : Libm.Faithful) (h : Elements o ρ) (f : Frame (218 / 10 ^ 13) (22 / 10 ^ 14) (8 / 10 ^ 13) b β) : Q ((aCoef (tq o) b).a1) ((aCoef (tq ρ) β).a1) (101 / 10 ^ 2) (458 / 10 ^ 13) := by
  have g1 := (f.cg.mul f.ch).mono (A' := 1) (δ' := 227 / 10 ^ 13) (by norm_num) (by norm_num)
  have g2 := (f.sg.mul f.ci).mono (A' := 1) (δ' := 221 / 10 ^ 13) (by norm_num) (by norm_num)
  have g3 := (g2.mul f.sh).mono (A' := 1) (δ' := 23 / 10 ^ 12) (by norm_num) (by norm_num)
  have g4 := (g1.add' g3 (1001 / 10 ^ 3) (a_sizes (ρ := ρ) f).1).mono (A' := 101 / 10 ^ 2) (δ' := 458 / 10 ^ 13) (by norm_num) (by norm_num)
  exact g4

theorem fM_a3 (hL : Libm.Faithful) (h : Elements o ρ) (f : Frame (218 / 10 ^ 13) (22 / 10 ^ 14) (8 / 10 ^ 13) b β) : Q ((aCoef (tq o) b).a3) ((aCoef (tq ρ) β).a3) (101 / 10 ^ 2) (458 / 10 ^ 13) := by
  have g1 := (f.sg.neg).mono (A' := 1) (δ' := 218 / 10 ^ 13) (by norm_num) (by norm_num)
  have g2 := (g1.mul f.ch).mono (A' := 1) (δ' := 227 / 10 ^ 13) (by norm_num) (by norm_num)
  have g3 := (f.cg.mul f.ci).mono (A' := 1) (δ' := 221 / 10 ^ 13) (by norm_num) (by norm_num)
  have g4 := (g3.mul f.sh).mono (A' := 1) (δ' := 23 / 10 ^ 12) (by norm_num) (by norm_num)
  have g5 := (g2.add' g4 (1001 / 10 ^ 3) (a_sizes (ρ := ρ) f).2.2.1).mono (A' := 101 / 10 ^ 2) (δ' := 458 / 10 ^ 13) (by norm_num) (by norm_num)
  exact g5

theorem fM_a7 (hL : Libm.Faithful) (h : Elements o ρ) (f : Frame (218 / 10 ^ 13) (22 / 10 ^ 14) (8 / 10 ^ 13) b β) : Q ((aCoef (tq o) b).a7) ((aCoef (tq ρ) β).a7) (101 / 10 ^ 2) (458 / 10 ^ 13) := by
  have g1 := (f.cg.neg).mono (A' := 1) (δ' := 218 / 10 ^ 13) (by norm_num) (by norm_num)
  have g2 := (g1.mul f.sh).mono (A' := 1) (δ' := 227 / 10 ^ 13) (by norm_num) (by norm_num)
  have g3 := (f.sg.mul f.ci).mono (A' := 1) (δ' := 221 / 10 ^ 13) (by norm_num) (by norm_num)
  have g4 := (g3.mul f.ch).mono (A' := 1) (δ' := 23 / 10 ^ 12) (by norm_num) (by norm_num)
  have g5 := (g2.add' g4 (1001 / 10 ^ 3) (a_sizes (ρ := ρ) f).2.2.2.2.2.2.1).mono (A' := 101 / 10 ^ 2) (δ' := 458 / 10 ^ 13) (by norm_num) (by norm_num)
  exact g5

theorem fM_a8 (hL : Libm.Faithful) (h : Elements o ρ) (f : Frame (218 / 10 ^ 13) (22 / 10 ^ 14) (8 / 10 ^ 13) b β) : Q ((aCoef (tq o) b).a8) ((aCoef (tq ρ) β).a8) (1) (221 / 10 ^ 13) := by
  have g1 := (f.sg.mul f.si).mono (A' := 1) (δ' := 221 / 10 ^ 13) (by norm_num) (by norm_num)
  exact g1

theorem fM_a9 (hL : Libm.Faithful) (h : Elements o ρ) (f : Frame (218 / 10 ^ 13) (22 / 10 ^ 14) (8 / 10 ^ 13) b β) : Q ((aCoef (tq o) b).a9) ((aCoef (tq ρ) β).a9) (101 / 10 ^ 2) (458 / 10 ^ 13) := by
  have g1 := (f.sg.mul f.sh).mono (A' := 1) (δ' := 227 / 10 ^ 13) (by norm_num) (by norm_num)
  have g2 := (f.cg.mul f.ci).mono (A' := 1) (δ' := 221 / 10 ^ 13) (by norm_num) (by norm_num)
  have g3 := (g2.mul f.ch).mono (A' := 1) (δ' := 23 / 10 ^ 12) (by norm_num) (by norm_num)
  have g4 := (g1.add' g3 (1001 / 10 ^ 3) (a_sizes (ρ := ρ) f).2.2.2.2.2.2.2).mono (A' := 101 / 10 ^ 2) (δ' := 458 / 10 ^ 13) (by norm_num) (by norm_num)
  exact g4

theorem fM_a10 (hL : Libm.Faithful) (h : Elements o ρ) (f : Frame (218 / 10 ^ 13) (22 / 10 ^ 14) (8 / 10 ^ 13) b β) : Q ((aCoef (tq o) b).a10) ((aCoef (tq ρ) β).a10) (1) (221 / 10 ^ 13) := by
  have g1 := (f.cg.mul f.si).mono (A' := 1) (δ' := 221 / 10 ^ 13) (by norm_num) (by norm_num)
  exact g1

theorem fM_a2 (hL : Libm.Faithful) (h : Elements o ρ) (f : Frame (218 / 10 ^ 13) (22 / 10 ^ 14) (8 / 10 ^ 13) b β) : Q ((aCoef (tq o) b).a2) ((aCoef (tq ρ) β).a2) (101 / 10 ^ 2) (682 / 10 ^ 13) := by
  have g1 := ((i_ci hL h).mul (fM_a7 hL h f)).mono (A' := 101 / 10 ^ 2) (δ' := 459 / 10 ^ 13) (by norm_num) (by norm_num)
  have g2 := ((i_si hL h).mul (fM_a8 hL h f)).mono (A' := 1) (δ' := 222 / 10 ^ 13) (by norm_num) (by norm_num)
  have g3 := (g1.add' g2 (1001 / 10 ^ 3) (a_sizes (ρ := ρ) f).2.1).mono (A' := 101 / 10 ^ 2) (δ' := 682 / 10 ^ 13) (by norm_num) (by norm_num)
  exact g3

theorem fM_a4 (hL : Libm.Faithful) (h : Elements o ρ) (f : Frame (218 / 10 ^ 13) (22 / 10 ^ 14) (8 / 10 ^ 13) b β) : Q ((aCoef (tq o) b).a4) ((aCoef (tq ρ) β).a4) (101 / 10 ^ 2) (682 / 10 ^ 13) := by
  have g1 := ((i_ci hL h).mul (fM_a9 hL h f)).mono (A' := 101 / 10 ^ 2) (δ' := 459 / 10 ^ 13) (by norm_num) (by norm_num)
  have g2 := ((i_si hL h).mul (fM_a10 hL h f)).mono (A' := 1) (δ' := 222 / 10 ^ 13) (by norm_num) (by norm_num)
  have g3 := (g1.add' g2 (1001 / 10 ^ 3) (a_sizes (ρ := ρ) f).2.2.2.1).mono (A' := 101 / 10 ^ 2) (δ' := 682 / 10 ^ 13) (by norm_num) (by norm_num)
  exact g3

theorem fM_a5 (hL : Libm.Faithful) (h : Elements o ρ) (f : Frame (218 / 10 ^ 13) (22 / 10 ^ 14) (8 / 10 ^ 13) b β) : Q ((aCoef (tq o) b).a5) ((aCoef (tq ρ) β).a5) (101 / 10 ^ 2) (682 / 10 ^ 13) := by
  have g1 := ((i_si hL h).neg).mono (A' := 1) (δ' := 556 / 10 ^ 17) (by norm_num) (by norm_num)
  have g2 := (g1.mul (fM_a7 hL h f)).mono (A' := 101 / 10 ^ 2) (δ' := 459 / 10 ^ 13) (by norm_num) (by norm_num)
  have g3 := ((i_ci hL h).mul (fM_a8 hL h f)).mono (A' := 1) (δ' := 222 / 10 ^ 13) (by norm_num) (by norm_num)
  have g4 := (g2.add' g3 (1001 / 10 ^ 3) (a_sizes (ρ := ρ) f).2.2.2.2.1).mono (A' := 101 / 10 ^ 2) (δ' := 682 / 10 ^ 13) (by norm_num) (by norm_num)
  exact g4

theorem fM_a6 (hL : Libm.Faithful) (h : Elements o ρ) (f : Frame (218 / 10 ^ 13) (22 / 10 ^ 14) (8 / 10 ^ 13) b β) : Q ((aCoef (tq o) b).a6) ((aCoef (tq ρ) β).a6) (101 / 10 ^ 2) (682 / 10 ^ 13) := by
  have g1 := ((i_si hL h).neg).mono (A' := 1) (δ' := 556 / 10 ^ 17) (by norm_num) (by norm_num)
  have g2 := (g1.mul (fM_a9 hL h f)).mono (A' := 101 / 10 ^ 2) (δ' := 459 / 10 ^ 13) (by norm_num) (by norm_num)
  have g3 := ((i_ci hL h).mul (fM_a10 hL h f)).mono (A' := 1) (δ' := 222 / 10 ^ 13) (by norm_num) (by norm_num)
  have g4 := (g2.add' g3 (1001 / 10 ^ 3) (a_sizes (ρ := ρ) f).2.2.2.2.2.1).mono (A' := 101 / 10 ^ 2) (δ' := 682 / 10 ^ 13) (by norm_num) (by norm_num)
  exact g4

theorem fM_x1 (hL : Libm.Faithful) (h : Elements o ρ) (f : Frame (218 / 10 ^ 13) (22 / 10 ^ 14) (8 / 10 ^ 13) b β) : Q ((xCoef (tq o) (aCoef (tq o) b)).x1) ((xCoef (tq ρ) (aCoef (tq ρ) β)).x1) (101 / 10 ^ 2) (115 / 10 ^ 12) := by
  have g1 := ((fM_a1 hL h f).mul (m_cosomm hL h)).mono (A' := 101 / 10 ^ 2) (δ' := 459 / 10 ^ 13) (by norm_num) (by norm_num)
  have g2 := ((fM_a2 hL h f).mul (m_sinomm hL h)).mono (A' := 101 / 10 ^ 2) (δ' := 683 / 10 ^ 13) (by norm_num) (by norm_num)
  have g3 := (g1.add' g2 (1001 / 10 ^ 3) (x_sizes (ρ := ρ) f).1).mono (A' := 101 / 10 ^ 2) (δ' := 115 / 10 ^ 12) (by norm_num) (by norm_num)
  exact g3

theorem fM_x2 (hL : Libm.Faithful) (h : Elements o ρ) (f : Frame (218 / 10 ^ 13) (22 / 10 ^ 14) (8 / 10 ^ 13) b β) : Q ((xCoef (tq o) (aCoef (tq o) b)).x2) ((xCoef (tq ρ) (aCoef (tq ρ) β)).x2) (101 / 10 ^ 2) (115 / 10 ^ 12) := by
  have g1 := ((fM_a3 hL h f).mul (m_cosomm hL h)).mono (A' := 101 / 10 ^ 2) (δ' := 459 / 10 ^ 13) (by norm_num) (by norm_num)
  have g2 := ((fM_a4 hL h f).mul (m_sinomm hL h)).mono (A' := 101 / 10 ^ 2) (δ' := 683 / 10 ^ 13) (by norm_num) (by norm_num)
  have g3 := (g1.add' g2 (1001 / 10 ^ 3) (x_sizes (ρ := ρ) f).2.1).mono (A' := 101 / 10 ^ 2) (δ' := 115 / 10 ^ 12) (by norm_num) (by norm_num)
  exact g3

theorem fM_x3 (hL : Libm.Faithful) (h : Elements o ρ) (f : Frame (218 / 10 ^ 13) (22 / 10 ^ 14) (8 / 10 ^ 13) b β) : Q ((xCoef (tq o) (aCoef (tq o) b)).x3) ((xCoef (tq ρ) (aCoef (tq ρ) β)).x3) (101 / 10 ^ 2) (115 / 10 ^ 12) := by
  have g1 := ((fM_a1 hL h f).neg).mono (A' := 101 / 10 ^ 2) (δ' := 458 / 10 ^ 13) (by norm_num) (by norm_num)
  have g2 := (g1.mul (m_sinomm hL h)).mono (A' := 101 / 10 ^ 2) (δ' := 459 / 10 ^ 13) (by norm_num) (by norm_num)
  have g3 := ((fM_a2 hL h f).mul (m_cosomm hL h)).mono (A' := 101 / 10 ^ 2) (δ' := 683 / 10 ^ 13) (by norm_num) (by norm_num)
  have g4 := (g2.add' g3 (1001 / 10 ^ 3) (x_sizes (ρ := ρ) f).2.2.1).mono (A' := 101 / 10 ^ 2) (δ' := 115 / 10 ^ 12) (by norm_num) (by norm_num)
  exact g4

theorem fM_x4 (hL : Libm.Faithful) (h : Elements o ρ) (f : Frame (218 / 10 ^ 13) (22 / 10 ^ 14) (8 / 10 ^ 13) b β) : Q ((xCoef (tq o) (aCoef (tq o) b)).x4) ((xCoef (tq ρ) (aCoef (tq ρ) β)).x4) (101 / 10 ^ 2) (115 / 10 ^ 12) := by
  have g1 := ((fM_a3 hL h f).neg).mono (A' := 101 / 10 ^ 2) (δ' := 458 / 10 ^ 13) (by norm_num) (by norm_num)
  have g2 := (g1.mul (m_sinomm hL h)).mono (A' := 101 / 10 ^ 2) (δ' := 459 / 10 ^ 13) (by norm_num) (by norm_num)
  have g3 := ((fM_a4 hL h f).mul (m_cosomm hL h)).mono (A' := 101 / 10 ^ 2) (δ' := 683 / 10 ^ 13) (by norm_num) (by norm_num)
  have g4 := (g2.add' g3 (1001 / 10 ^ 3) (x_sizes (ρ := ρ) f).2.2.2).mono (A' := 101 / 10 ^ 2) (δ' := 115 / 10 ^ 12) (by norm_num) (by norm_num)
  exact g4

theorem fM_x5 (hL : Libm.Faithful) (h : Elements o ρ) (f : Frame (218 / 10 ^ 13) (22 / 10 ^ 14) (8 / 10 ^ 13) b β) : Q ((xCoef (tq o) (aCoef (tq o) b)).x5) ((xCoef (tq ρ) (aCoef (tq ρ) β)).x5) (101 / 10 ^ 2) (683 / 10 ^ 13) := by
  have g1 := ((fM_a5 hL h f).mul (m_sinomm hL h)).mono (A' := 101 / 10 ^ 2) (δ' := 683 / 10 ^ 13) (by norm_num) (by norm_num)
  exact g1

theorem fM_x6 (hL : Libm.Faithful) (h : Elements o ρ) (f : Frame (218 / 10 ^ 13) (22 / 10 ^ 14) (8 / 10 ^ 13) b β) : Q ((xCoef (tq o) (aCoef (tq o) b)).x6) ((xCoef (tq ρ) (aCoef (tq ρ) β)).x6) (101 / 10 ^ 2) (683 / 10 ^ 13) := by
  have g1 := ((fM_a6 hL h f).mul (m_sinomm hL h)).mono (A' := 101 / 10 ^ 2) (δ' := 683 / 10 ^ 13) (by norm_num) (by norm_num)
  exact g1

theorem fM_x7 (hL : Libm.Faithful) (h : Elements o ρ) (f : Frame (218 / 10 ^ 13) (22 / 10 ^ 14) (8 / 10 ^ 13) b β) : Q ((xCoef (tq o) (aCoef (tq o) b)).x7) ((xCoef (tq ρ) (aCoef (tq ρ) β)).x7) (101 / 10 ^ 2) (683 / 10 ^ 13) := by
  have g1 := ((fM_a5 hL h f).mul (m_cosomm hL h)).mono (A' := 101 / 10 ^ 2) (δ' := 683 / 10 ^ 13) (by norm_num) (by norm_num)
  exact g1

theorem fM_x8 (hL : Libm.Faithful) (h : Elements o ρ) (f : Frame (218 / 10 ^ 13) (22 / 10 ^ 14) (8 / 10 ^ 13) b β) : Q ((xCoef (tq o) (aCoef (tq o) b)).x8) ((xCoef (tq ρ) (aCoef (tq ρ) β)).x8) (101 / 10 ^ 2) (683 / 10 ^ 13) := by
  have g1 := ((fM_a6 hL h f).mul (m_cosomm hL h)).mono (A' := 101 / 10 ^ 2) (δ' := 683 / 10 ^ 13) (by norm_num) (by norm_num)
  exact g1

theorem fM_s5 (hL : Libm.Faithful) (h : Elements o ρ) (f : Frame (218 / 10 ^ 13) (22 / 10 ^ 14) (8 / 10 ^ 13) b β) : Q ((pass (tq o) b y).s5) ((pass (tq ρ) β υ).s5) (101 / 10 ^ 2) (467 / 10 ^ 12) := by
  have g1 := ((fM_x1 hL h f).mul (fM_x3 hL h f)).mono (A' := 103 / 10 ^ 2) (δ' := 233 / 10 ^ 12) (by norm_num) (by norm_num)
  have g2 := ((fM_x2 hL h f).mul (fM_x4 hL h f)).mono (A' := 103 / 10 ^ 2) (δ' := 233 / 10 ^ 12) (by norm_num) (by norm_num)
  have g3 := (g1.add' g2 (1001 / 10 ^ 3) (s_sizes (ρ := ρ) (υ := υ) f).1).mono (A' := 101 / 10 ^ 2) (δ' := 467 / 10 ^ 12) (by norm_num) (by norm_num)
  exact g3

theorem fM_s6 (hL : Libm.Faithful) (h : Elements o ρ) (f : Frame (218 / 10 ^ 13) (22 / 10 ^ 14) (8 / 10 ^ 13) b β) : Q ((pass (tq o) b y).s6) ((pass (tq ρ) β υ).s6) (101 / 10 ^ 2) (467 / 10 ^ 12) := by
  have g1 := ((fM_x2 hL h f).mul (fM_x3 hL h f)).mono (A' := 103 / 10 ^ 2) (δ' := 233 / 10 ^ 12) (by norm_num) (by norm_num)
  have g2 := ((fM_x1 hL h f).mul (fM_x4 hL h f)).mono (A' := 103 / 10 ^ 2) (δ' := 233 / 10 ^ 12) (by norm_num) (by norm_num)
  have g3 := (g1.add' g2 (1001 / 10 ^ 3) (s_sizes (ρ := ρ) (υ := υ) f).2.1).mono (A' := 101 / 10 ^ 2) (δ' := 467 / 10 ^ 12) (by norm_num) (by norm_num)
  exact g3

theorem fM_s7 (hL : Libm.Faithful) (h : Elements o ρ) (f : Frame (218 / 10 ^ 13) (22 / 10 ^ 14) (8 / 10 ^ 13) b β) : Q ((pass (tq o) b y).s7) ((pass (tq ρ) β υ).s7) (101 / 10 ^ 2) (467 / 10 ^ 12) := by
  have g1 := ((fM_x2 hL h f).mul (fM_x4 hL h f)).mono (A' := 103 / 10 ^ 2) (δ' := 233 / 10 ^ 12) (by norm_num) (by norm_num)
  have g2 := ((fM_x1 hL h f).mul (fM_x3 hL h f)).mono (A' := 103 / 10 ^ 2) (δ' := 233 / 10 ^ 12) (by norm_num) (by norm_num)
  have g3 := (g1.sub' g2 (1001 / 10 ^ 3) (s_sizes (ρ := ρ) (υ := υ) f).2.2).mono (A' := 101 / 10 ^ 2) (δ' := 467 / 10 ^ 12) (by norm_num) (by norm_num)
  exact g3

theorem fM_z11 (hL : Libm.Faithful) (h : Elements o ρ) (f : Frame (218 / 10 ^ 13) (22 / 10 ^ 14) (8 / 10 ^ 13) b β) : Q ((pass (tq o) b y).z11) ((pass (tq ρ) β υ).z11) (114 / 10 ^ 1) (164 / 10 ^ 11) := by
  have g1 := (Q.int 60 true 1 6 (by norm_num)).mono (A' := 6) (δ' := 0) (by norm_num) le_rfl
  have g2 := (g1.neg).mono (A' := 6) (δ' := 0) (by norm_num) (by norm_num)
  have g3 := (Q.int 240 true 1 24 (by norm_num)).mono (A' := 24) (δ' := 0) (by norm_num) le_rfl
  have g4 := (g3.neg).mono (A' := 24) (δ' := 0) (by norm_num) (by norm_num)
  have g5 := (g2.mul (fM_a1 hL h f)).mono (A' := 606 / 10 ^ 2) (δ' := 275 / 10 ^ 12) (by norm_num) (by norm_num)
  have g6 := (g5.mul (fM_a5 hL h f)).mono (A' := 613 / 10 ^ 2) (δ' := 692 / 10 ^ 12) (by norm_num) (by norm_num)
  have g7 := (g4.mul (fM_x1 hL h f)).mono (A' := 243 / 10 ^ 1) (δ' := 277 / 10 ^ 11) (by norm_num) (by norm_num)
  have g8 := (g7.mul (fM_x7 hL h f)).mono (A' := 246 / 10 ^ 1) (δ' := 446 / 10 ^ 11) (by norm_num) (by norm_num)
  have g9 := (g1.mul (fM_x3 hL h f)).mono (A' := 606 / 10 ^ 2) (δ' := 691 / 10 ^ 12) (by norm_num) (by norm_num)
  have g10 := (g9.mul (fM_x5 hL h f)).mono (A' := 613 / 10 ^ 2) (δ' := 112 / 10 ^ 11) (by norm_num) (by norm_num)
  have g11 := (g8.sub g10).mono (A' := 308 / 10 ^ 1) (δ' := 559 / 10 ^ 11) (by norm_num) (by norm_num)
  have g12 := ((m_emsq hL h).mul g11).mono (A' := 521 / 10 ^ 2) (δ' := 945 / 10 ^ 12) (by norm_num) (by norm_num)
  have g13 := (g6.add g12).mono (A' := 114 / 10 ^ 1) (δ' := 164 / 10 ^ 11) (by norm_num) (by norm_num)
  exact g13

theorem fM_z13 (hL : Libm.Faithful) (h : Elements o ρ) (f : Frame (218 / 10 ^ 13) (22 / 10 ^ 14) (8 / 10 ^ 13) b β) : Q ((pass (tq o) b y).z13) ((pass (tq ρ) β υ).z13) (114 / 10 ^ 1) (164 / 10 ^ 11) := by
  have g1 := (Q.int 60 true 1 6 (by norm_num)).mono (A' := 6) (δ' := 0) (by norm_num) le_rfl
  have g2 := (g1.neg).mono (A' := 6) (δ' := 0) (by norm_num) (by norm_num)
  have g3 := (Q.int 240 true 1 24 (by norm_num)).mono (A' := 24) (δ' := 0) (by norm_num) le_rfl
  have g4 := (g3.neg).mono (A' := 24) (δ' := 0) (by norm_num) (by norm_num)
  have g5 := (g2.mul (fM_a3 hL h f)).mono (A' := 606 / 10 ^ 2) (δ' := 275 / 10 ^ 12) (by norm_num) (by norm_num)
  have g6 := (g5.mul (fM_a6 hL h f)).mono (A' := 613 / 10 ^ 2) (δ' := 692 / 10 ^ 12) (by norm_num) (by norm_num)
  have g7 := (g4.mul (fM_x2 hL h f)).mono (A' := 243 / 10 ^ 1) (δ' := 277 / 10 ^ 11) (by norm_num) (by norm_num)
  have g8 := (g7.mul (fM_x8 hL h f)).mono (A' := 246 / 10 ^ 1) (δ' := 446 / 10 ^ 11) (by norm_num) (by norm_num)
  have g9 := (g1.mul (fM_x4 hL h f)).mono (A' := 606 / 10 ^ 2) (δ' := 691 / 10 ^ 12) (by norm_num) (by norm_num)
  have g10 := (g9.mul (fM_x6 hL h f)).mono (A' := 613 / 10 ^ 2) (δ' := 112 / 10 ^ 11) (by norm_num) (by norm_num)
  have g11 := (g8.sub g10).mono (A' := 308 / 10 ^ 1) (δ' := 559 / 10 ^ 11) (by norm_num) (by norm_num)
  have g12 := ((m_emsq hL h).mul g11).mono (A' := 521 / 10 ^ 2) (δ' := 945 / 10 ^ 12) (by norm_num) (by norm_num)
  have g13 := (g6.add g12).mono (A' := 114 / 10 ^ 1) (δ' := 164 / 10 ^ 11) (by norm_num) (by norm_num)
  exact g13

theorem fM_z12 (hL : Libm.Faithful) (h : Elements o ρ) (f : Frame (218 / 10 ^ 13) (22 / 10 ^ 14) (8 / 10 ^ 13) b β) : Q ((pass (tq o) b y).z12) ((pass (tq ρ) β υ).z12) (229 / 10 ^ 1) (332 / 10 ^ 11) := by
  have g1 := (Q.int 60 true 1 6 (by norm_num)).mono (A' := 6) (δ' := 0) (by norm_num) le_rfl
  have g2 := (g1.neg).mono (A' := 6) (δ' := 0) (by norm_num) (by norm_num)
  have g3 := (Q.int 240 true 1 24 (by norm_num)).mono (A' := 24) (δ' := 0) (by norm_num) le_rfl
  have g4 := (g3.neg).mono (A' := 24) (δ' := 0) (by norm_num) (by norm_num)
  have g5 := ((fM_a1 hL h f).mul (fM_a6 hL h f)).mono (A' := 103 / 10 ^ 2) (δ' := 116 / 10 ^ 12) (by norm_num) (by norm_num)
  have g6 := ((fM_a3 hL h f).mul (fM_a5 hL h f)).mono (A' := 103 / 10 ^ 2) (δ' := 116 / 10 ^ 12) (by norm_num) (by norm_num)
  have g7 := (g5.add g6).mono (A' := 206 / 10 ^ 2) (δ' := 233 / 10 ^ 12) (by norm_num) (by norm_num)
  have g8 := (g2.mul g7).mono (A' := 124 / 10 ^ 1) (δ' := 14 / 10 ^ 10) (by norm_num) (by norm_num)
  have g9 := ((fM_x2 hL h f).mul (fM_x7 hL h f)).mono (A' := 103 / 10 ^ 2) (δ' := 186 / 10 ^ 12) (by norm_num) (by norm_num)
  have g10 := ((fM_x1 hL h f).mul (fM_x8 hL h f)).mono (A' := 103 / 10 ^ 2) (δ' := 186 / 10 ^ 12) (by norm_num) (by norm_num)
  have g11 := (g9.add g10).mono (A' := 206 / 10 ^ 2) (δ' := 373 / 10 ^ 12) (by norm_num) (by norm_num)
  have g12 := (g4.mul g11).mono (A' := 495 / 10 ^ 1) (δ' := 896 / 10 ^ 11) (by norm_num) (by norm_num)
  have g13 := ((fM_x3 hL h f).mul (fM_x6 hL h f)).mono (A' := 103 / 10 ^ 2) (δ' := 186 / 10 ^ 12) (by norm_num) (by norm_num)
  have g14 := ((fM_x4 hL h f).mul (fM_x5 hL h f)).mono (A' := 103 / 10 ^ 2) (δ' := 186 / 10 ^ 12) (by norm_num) (by norm_num)
  have g15 := (g13.add g14).mono (A' := 206 / 10 ^ 2) (δ' := 373 / 10 ^ 12) (by norm_num) (by norm_num)
  have g16 := (g2.mul g15).mono (A' := 124 / 10 ^ 1) (δ' := 224 / 10 ^ 11) (by norm_num) (by norm_num)
  have g17 := (g12.add g16).mono (A' := 619 / 10 ^ 1) (δ' := 113 / 10 ^ 10) (by norm_num) (by norm_num)
  have g18 := ((m_emsq hL h).mul g17).mono (A' := 105 / 10 ^ 1) (δ' := 191 / 10 ^ 11) (by norm_num) (by norm_num)
  have g19 := (g8.add g18).mono (A' := 229 / 10 ^ 1) (δ' := 332 / 10 ^ 11) (by norm_num) (by norm_num)
  exact g19

theorem no_abs (hL : Libm.Faithful) (h : Elements o ρ) : 249 / 10 ^ 5 ≤ |no ρ| := (no_bounds hL h).1.trans (le_abs_self _)
omit [Libm] in
theorem rt_abs (h : Elements o ρ) : 911 / 10 ^ 3 ≤ |rt ρ| := (rt_lo h.toRanges).trans (le_abs_self _)

theorem m_xnoi (hL : Libm.Faithful) (h : Elements o ρ) : Q ((1.0 / no o)) ((1.0 / no ρ)) (402) (225 / 10 ^ 13) := by
  have g1 := (Q.int 10 true 1 1 (by norm_num)).mono (A' := 1) (δ' := 0) (by norm_num) le_rfl
  have g2 := (g1.div (i_no hL h) (249 / 10 ^ 5) (402) (no_abs hL h) (quot_le (m := 249 / 10 ^ 5) g1.mag (no_abs hL h) (by norm_num) (by norm_num))).mono (A' := 402) (δ' := 225 / 10 ^ 13) (by norm_num) (by norm_num)
  exact g2

theorem m_s3S (hL : Libm.Faithful) (h : Elements o ρ) : Q ((pass (tq o) (fS o) (1.0 / no o)).s3) ((pass (tq ρ) (fS ρ) (1.0 / no ρ)).s3) (121 / 10 ^ 5) (676 / 10 ^ 19) := by
  have g1 := (Q.sci 29864797 true 13 (299 / 10 ^ 8) (by norm_num)).mono (A' := 299 / 10 ^ 8) (δ' := 332 / 10 ^ 24) (by norm_num) (by norm_num)
  have g2 := (g1.mul (m_xnoi hL h)).mono (A' := 121 / 10 ^ 5) (δ' := 676 / 10 ^ 19) (by norm_num) (by norm_num)
  exact g2

theorem m_s2S (hL : Libm.Faithful) (h : Elements o ρ) : Q ((pass (tq o) (fS o) (1.0 / no o)).s2) ((pass (tq ρ) (fS ρ) (1.0 / no ρ)).s2) (666 / 10 ^ 6) (376 / 10 ^ 19) := by
  have g1 := Q.dyadic 5 true 1 1 1 (5 / 10 ^ 1) (by norm_num) (by norm_num)
  have g2 := (g1.neg).mono (A' := 5 / 10 ^ 1) (δ' := 0) (by norm_num) (by norm_num)
  have g3 := (g2.mul (m_s3S hL h)).mono (A' := 605 / 10 ^ 6) (δ' := 339 / 10 ^ 19) (by norm_num) (by norm_num)
  have g4 := (g3.div (i_rt h) (911 / 10 ^ 3) (666 / 10 ^ 6) (rt_abs h) (quot_le (m := 911 / 10 ^ 3) g3.mag (rt_abs h) (by norm_num) (by norm_num))).mono (A' := 666 / 10 ^ 6) (δ' := 376 / 10 ^ 19) (by norm_num) (by norm_num)
  exact g4

theorem m_s4S (hL : Libm.Faithful) (h : Elements o ρ) : Q ((pass (tq o) (fS o) (1.0 / no o)).s4) ((pass (tq ρ) (fS ρ) (1.0 / no ρ)).s4) (121 / 10 ^ 5) (682 / 10 ^ 19) := by
  have g1 := ((m_s3S hL h).mul (i_rt h)).mono (A' := 121 / 10 ^ 5) (δ' := 682 / 10 ^ 19) (by norm_num) (by norm_num)
  exact g1

theorem m_s1S (hL : Libm.Faithful) (h : Elements o ρ) : Q ((pass (tq o) (fS o) (1.0 / no o)).s1) ((pass (tq ρ) (fS ρ) (1.0 / no ρ)).s1) (745 / 10 ^ 5) (423 / 10 ^ 18) := by
  have g1 := (Q.int 150 true 1 15 (by norm_num)).mono (A' := 15) (δ' := 0) (by norm_num) le_rfl
  have g2 := (g1.neg).mono (A' := 15) (δ' := 0) (by norm_num) (by norm_num)
  have g3 := (g2.mul (in_ecc h)).mono (A' := 615 / 10 ^ 2) (δ' := 219 / 10 ^ 17) (by norm_num) (by norm_num)
  have g4 := (g3.mul (m_s4S hL h)).mono (A' := 745 / 10 ^ 5) (δ' := 423 / 10 ^ 18) (by norm_num) (by norm_num)
  exact g4

theorem m_se2 (hL : Libm.Faithful) (h : Elements o ρ) : Q ((ls o).se2) ((ls ρ).se2) (151 / 10 ^ 4) (505 / 10 ^ 17) := by
  have g1 := (Q.int 20 true 1 2 (by norm_num)).mono (A' := 2) (δ' := 0) (by norm_num) le_rfl
  have g2 := (g1.mul (m_s1S hL h)).mono (A' := 149 / 10 ^ 4) (δ' := 848 / 10 ^ 18) (by norm_num) (by norm_num)
  have g3 := (g2.mul (fS_s6 (y := 1.0 / no o) (υ := 1.0 / no ρ) hL h (frame_sun hL h))).mono (A' := 151 / 10 ^ 4) (δ' := 505 / 10 ^ 17) (by norm_num) (by norm_num)
  exact g3

theorem m_se3 (hL : Libm.Faithful) (h : Elements o ρ) : Q ((ls o).se3) ((ls ρ).se3) (151 / 10 ^ 4) (505 / 10 ^ 17) := by
  have g1 := (Q.int 20 true 1 2 (by norm_num)).mono (A' := 2) (δ' := 0) (by norm_num) le_rfl
  have g2 := (g1.mul (m_s1S hL h)).mono (A' := 149 / 10 ^ 4) (δ' := 848 / 10 ^ 18) (by norm_num) (by norm_num)
  have g3 := (g2.mul (fS_s7 (y := 1.0 / no o) (υ := 1.0 / no ρ) hL h (frame_sun hL h))).mono (A' := 151 / 10 ^ 4) (δ' := 505 / 10 ^ 17) (by norm_num) (by norm_num)
  exact g3

theorem m_si2 (hL : Libm.Faithful) (h : Elements o ρ) : Q ((ls o).si2) ((ls ρ).si2) (307 / 10 ^ 4) (417 / 10 ^ 17) := by
  have g1 := (Q.int 20 true 1 2 (by norm_num)).mono (A' := 2) (δ' := 0) (by norm_num) le_rfl
  have g2 := (g1.mul (m_s2S hL h)).mono (A' := 134 / 10 ^ 5) (δ' := 754 / 10 ^ 19) (by norm_num) (by norm_num)
  have g3 := (g2.mul (fS_z12 (y := 1.0 / no o) (υ := 1.0 / no ρ) hL h (frame_sun hL h))).mono (A' := 307 / 10 ^ 4) (δ' := 417 / 10 ^ 17) (by norm_num) (by norm_num)
  exact g3

theorem m_si3 (hL : Libm.Faithful) (h : Elements o ρ) : Q ((ls o).si3) ((ls ρ).si3) (306 / 10 ^ 4) (415 / 10 ^ 17) := by
  have g1 := (Q.int 20 true 1 2 (by norm_num)).mono (A' := 2) (δ' := 0) (by norm_num) le_rfl
  have g2 := (g1.mul (m_s2S hL h)).mono (A' := 134 / 10 ^ 5) (δ' := 754 / 10 ^ 19) (by norm_num) (by norm_num)
  have g3 := ((fS_z13 (y := 1.0 / no o) (υ := 1.0 / no ρ) hL h (frame_sun hL h)).sub (fS_z11 (y := 1.0 / no o) (υ := 1.0 / no ρ) hL h (frame_sun hL h))).mono (A' := 228 / 10 ^ 1) (δ' := 181 / 10 ^ 14) (by norm_num) (by norm_num)
  have g4 := (g2.mul g3).mono (A' := 306 / 10 ^ 4) (δ' := 415 / 10 ^ 17) (by norm_num) (by norm_num)
  exact g4

theorem m_s3M (hL : Libm.Faithful) (h : Elements o ρ) : Q ((pass (tq o) (fM o) (1.0 / no o)).s3) ((pass (tq ρ) (fM ρ) (1.0 / no ρ)).s3) (193 / 10 ^ 6) (109 / 10 ^ 19) := by
  have g1 := (Q.sci 47968065 true 14 (48 / 10 ^ 8) (by norm_num)).mono (A' := 48 / 10 ^ 8) (δ' := 533 / 10 ^ 25) (by norm_num) (by norm_num)
  have g2 := (g1.mul (m_xnoi hL h)).mono (A' := 193 / 10 ^ 6) (δ' := 109 / 10 ^ 19) (by norm_num) (by norm_num)
  exact g2

theorem m_s2M (hL : Libm.Faithful) (h : Elements o ρ) : Q ((pass (tq o) (fM o) (1.0 / no o)).s2) ((pass (tq ρ) (fM ρ) (1.0 / no ρ)).s2) (107 / 10 ^ 6) (606 / 10 ^ 20) := by
  have g1 := Q.dyadic 5 true 1 1 1 (5 / 10 ^ 1) (by norm_num) (by norm_num)
  have g2 := (g1.neg).mono (A' := 5 / 10 ^ 1) (δ' := 0) (by norm_num) (by norm_num)
  have g3 := (g2.mul (m_s3M hL h)).mono (A' := 965 / 10 ^ 7) (δ' := 547 / 10 ^ 20) (by norm_num) (by norm_num)
  have g4 := (g3.div (i_rt h) (911 / 10 ^ 3) (107 / 10 ^ 6) (rt_abs h) (quot_le (m := 911 / 10 ^ 3) g3.mag (rt_abs h) (by norm_num) (by norm_num))).mono (A' := 107 / 10 ^ 6) (δ' := 606 / 10 ^ 20) (by norm_num) (by norm_num)
  exact g4

theorem m_s4M (hL : Libm.Faithful) (h : Elements o ρ) : Q ((pass (tq o) (fM o) (1.0 / no o)).s4) ((pass (tq ρ) (fM ρ) (1.0 / no ρ)).s4) (193 / 10 ^ 6) (11 / 10 ^ 18) := by
  have g1 := ((m_s3M hL h).mul (i_rt h)).mono (A' := 193 / 10 ^ 6) (δ' := 11 / 10 ^ 18) (by norm_num) (by norm_num)
  exact g1

theorem m_s1M (hL : Libm.Faithful) (h : Elements o ρ) : Q ((pass (tq o) (fM o) (1.0 / no o)).s1) ((pass (tq ρ) (fM ρ) (1.0 / no ρ)).s1) (119 / 10 ^ 5) (683 / 10 ^ 19) := by
  have g1 := (Q.int 150 true 1 15 (by norm_num)).mono (A' := 15) (δ' := 0) (by norm_num) le_rfl
  have g2 := (g1.neg).mono (A' := 15) (δ' := 0) (by norm_num) (by norm_num)
  have g3 := (g2.mul (in_ecc h)).mono (A' := 615 / 10 ^ 2) (δ' := 219 / 10 ^ 17) (by norm_num) (by norm_num)
  have g4 := (g3.mul (m_s4M hL h)).mono (A' := 119 / 10 ^ 5) (δ' := 683 / 10 ^ 19) (by norm_num) (by norm_num)
  exact g4

theorem m_ee2 (hL : Libm.Faithful) (h : Elements o ρ) : Q ((ls o).ee2) ((ls ρ).ee2) (241 / 10 ^ 5) (112 / 10 ^ 14) := by
  have g1 := (Q.int 20 true 1 2 (by norm_num)).mono (A' := 2) (δ' := 0) (by norm_num) le_rfl
  have g2 := (g1.mul (m_s1M hL h)).mono (A' := 238 / 10 ^ 5) (δ' := 137 / 10 ^ 18) (by norm_num) (by norm_num)
  have g3 := (g2.mul (fM_s6 (y := 1.0 / no o) (υ := 1.0 / no ρ) hL h (frame_moon hL h))).mono (A' := 241 / 10 ^ 5) (δ' := 112 / 10 ^ 14) (by norm_num) (by norm_num)
  exact g3

theorem m_e3 (hL : Libm.Faithful) (h : Elements o ρ) : Q ((ls o).e3) ((ls ρ).e3) (241 / 10 ^ 5) (112 / 10 ^ 14) := by
  have g1 := (Q.int 20 true 1 2 (by norm_num)).mono (A' := 2) (δ' := 0) (by norm_num) le_rfl
  have g2 := (g1.mul (m_s1M hL h)).mono (A' := 238 / 10 ^ 5) (δ' := 137 / 10 ^ 18) (by norm_num) (by norm_num)
  have g3 := (g2.mul (fM_s7 (y := 1.0 / no o) (υ := 1.0 / no ρ) hL h (frame_moon hL h))).mono (A' := 241 / 10 ^ 5) (δ' := 112 / 10 ^ 14) (by norm_num) (by norm_num)
  exact g3

theorem m_xi2 (hL : Libm.Faithful) (h : Elements o ρ) : Q ((ls o).xi2) ((ls ρ).xi2) (491 / 10 ^ 5) (711 / 10 ^ 15) := by
  have g1 := (Q.int 20 true 1 2 (by norm_num)).mono (A' := 2) (δ' := 0) (by norm_num) le_rfl
  have g2 := (g1.mul (m_s2M hL h)).mono (A' := 214 / 10 ^ 6) (δ' := 122 / 10 ^ 19) (by norm_num) (by norm_num)
  have g3 := (g2.mul (fM_z12 (y := 1.0 / no o) (υ := 1.0 / no ρ) hL h (frame_moon hL h))).mono (A' := 491 / 10 ^ 5) (δ' := 711 / 10 ^ 15) (by norm_num) (by norm_num)
  exact g3

theorem m_xi3 (hL : Libm.Faithful) (h : Elements o ρ) : Q ((ls o).xi3) ((ls ρ).xi3) (488 / 10 ^ 5) (705 / 10 ^ 15) := by
  have g1 := (Q.int 20 true 1 2 (by norm_num)).mono (A' := 2) (δ' := 0) (by norm_num) le_rfl
  have g2 := (g1.mul (m_s2M hL h)).mono (A' := 214 / 10 ^ 6) (δ' := 122 / 10 ^ 19) (by norm_num) (by norm_num)
  have g3 := ((fM_z13 (y := 1.0 / no o) (υ := 1.0 / no ρ) hL h (frame_moon hL h)).sub (fM_z11 (y := 1.0 / no o) (υ := 1.0 / no ρ) hL h (frame_moon hL h))).mono (A' := 228 / 10 ^ 1) (δ' := 329 / 10 ^ 11) (by norm_num) (by norm_num)
  have g4 := (g2.mul g3).mono (A' := 488 / 10 ^ 5) (δ' := 705 / 10 ^ 15) (by norm_num) (by norm_num)
  exact g4

theorem m_dedt (hL : Libm.Faithful) (h : Elements o ρ) : Q (dedt o) (dedt ρ) (283 / 10 ^ 9) (889 / 10 ^ 19) := by
  have g1 := (Q.sci 119459 true 10 (12 / 10 ^ 6) (by norm_num)).mono (A' := 12 / 10 ^ 6) (δ' := 134 / 10 ^ 23) (by norm_num) (by norm_num)
  have g2 := ((m_s1S hL h).mul g1).mono (A' := 894 / 10 ^ 10) (δ' := 51 / 10 ^ 22) (by norm_num) (by norm_num)
  have g3 := (g2.mul (fS_s5 (y := 1.0 / no o) (υ := 1.0 / no ρ) hL h (frame_sun hL h))).mono (A' := 903 / 10 ^ 10) (δ' := 303 / 10 ^ 22) (by norm_num) (by norm_num)
  have g4 := (Q.sci 15835218 true 11 (159 / 10 ^ 6) (by norm_num)).mono (A' := 159 / 10 ^ 6) (δ' := 177 / 10 ^ 22) (by norm_num) (by norm_num)
  have g5 := ((m_s1M hL h).mul g4).mono (A' := 19 / 10 ^ 8) (δ' := 11 / 10 ^ 21) (by norm_num) (by norm_num)
  have g6 := (g5.mul (fM_s5 (y := 1.0 / no o) (υ := 1.0 / no ρ) hL h (frame_moon hL h))).mono (A' := 192 / 10 ^ 9) (δ' := 888 / 10 ^ 19) (by norm_num) (by norm_num)
  have g7 := (g3.add g6).mono (A' := 283 / 10 ^ 9) (δ' := 889 / 10 ^ 19) (by norm_num) (by norm_num)
  exact g7

end
end Sat.Far
