import Verif.Props.F64Kepler
/-!
# From the mean elements to the state: error in doubles

`Mid s t r τ`: the slowly varying quantities computed in doubles from `s`, `t` are close to those computed in exact arithmetic from `r`, `τ`, and
within the range of closed orbits of eccentricity up to 0.44.  The rest of the propagator is followed operation by operation (`F64/Approx.lean`);
the last theorems bound the error of each component of position and velocity.
-/

namespace Sat
open F64 Spec

/-- what the first half of the propagator must deliver -/
structure Mid [Libm] (s : Satrec F64) (t : F64) (r : Satrec ℝ) (τ : ℝ) : Prop where
  a : Q (semiMajor s t) (semiMajor r τ) (105 / 10) (3 / 10 ^ 13)
  a_lo : 3 / 4 ≤ semiMajor r τ
  e : Q (ecc s t) (ecc r τ) (44 / 10 ^ 2) (1 / 10 ^ 13)
  node : QA (nodeR s t) (nodeR r τ) 6.3 (2 / 10 ^ 12)
  peri : QA (perigeeR s t) (perigeeR r τ) 6.3 (4 / 10 ^ 12)
  anom : QA (anomalyR s t) (anomalyR r τ) 6.3 (25 / 10 ^ 12)
  incl : Q (incl s t) (incl r τ) 4 (1 / 10 ^ 11)
  ay : Q (ayCoef s t) (ayCoef r τ) (1 / 500) (1 / 10 ^ 13)
  xl : Q (xlCoef s t) (xlCoef r τ) 1 (1 / 10 ^ 11)
  c3 : Q (threeCos s t) (threeCos r τ) 4 (1 / 10 ^ 10)
  c1 : Q (oneMinusCos s t) (oneMinusCos r τ) 2 (1 / 10 ^ 10)
  c7 : Q (sevenCos s t) (sevenCos r τ) 8 (1 / 10 ^ 10)

section
variable [Libm]

omit [Libm] in
theorem twoPi_real : (TWO_PI : ℝ) = 2 * Real.pi := by
  show Real.pi * (2.0 : ℝ) = _
  norm_num; ring

/-- reduction to one turn, both sides with the program's constant -/
theorem F64.QA.remT {x : F64} {a A δ : ℝ} (hx : QA x a A δ) :
    QA (Arith.rem x TWO_PI) (Arith.rem a (TWO_PI : ℝ)) 6.3 (δ + (A / 6 + 1) / 2 ^ 51) := by
  rw [real_rem, twoPi_real]; exact hx.rem

theorem q_J2 : Q (J2 : F64) (J2 : ℝ) (109 / 10 ^ 5) (122 / 10 ^ 21) :=
  (Q.sci 108262998905 true 14 (109 / 10 ^ 5) (by norm_num)).mono le_rfl (by norm_num)
theorem q_XKE : Q (XKE : F64) (XKE : ℝ) (744 / 10 ^ 4) (827 / 10 ^ 20) :=
  (Q.sci 7436685316871385 true 17 (744 / 10 ^ 4) (by norm_num)).mono le_rfl (by norm_num)
theorem q_ER : Q (EARTH_RADIUS : F64) (EARTH_RADIUS : ℝ) (6379) (709 / 10 ^ 15) :=
  (Q.sci 6378137 true 3 (6379) (by norm_num)).mono le_rfl (by norm_num)
omit [Libm] in
theorem XKE_ge : 743 / 10 ^ 4 ≤ |(XKE : ℝ)| := by
  have : (XKE : ℝ) = 0.07436685316871385 := rfl
  rw [this]; norm_num

variable {F : Type} [Arith F] {s : Satrec F64} {t : F64} {r : Satrec ℝ} {τ : ℝ}

theorem ecc_sq (h : Mid s t r τ) : 0 ≤ ecc r τ * ecc r τ ∧ ecc r τ * ecc r τ ≤ 0.1936 := by
  have h1 := h.e.mag
  refine ⟨mul_self_nonneg _, ?_⟩
  rw [← abs_mul_abs_self]
  have h2 := mul_le_mul h1 h1 (abs_nonneg _) (by norm_num)
  norm_num at *; linarith

theorem invP_den (h : Mid s t r τ) : 6 / 10 ^ 1 ≤ |semiMajor r τ * ((1.0 : ℝ) - ecc r τ * ecc r τ)| := by
  have h1 := ecc_sq h
  have h2 := h.a_lo
  refine le_trans ?_ (le_abs_self _)
  norm_num at *
  nlinarith [h1.2]

omit [Libm] in
theorem plane_add {e c s q E Q : ℝ} (hu : s ^ 2 + c ^ 2 = 1) (he : |e| ≤ E) (hq : |q| ≤ Q) : (e * c) ^ 2 + (e * s + q) ^ 2 ≤ (E + Q) ^ 2 := by
  have h1 : (e * c) ^ 2 + (e * s + q) ^ 2 = e ^ 2 + 2 * (e * q) * s + q ^ 2 := by linear_combination e ^ 2 * hu
  have h2 : (e * q) * s ≤ E * Q := by
    refine (le_abs_self _).trans ?_
    rw [abs_mul, abs_mul]
    have hs : |s| ≤ 1 := abs_le_of_sq_le_sq (by nlinarith [sq_nonneg c]) (by norm_num)
    have h3 : |e| * |q| ≤ E * Q := mul_le_mul he hq (abs_nonneg _) ((abs_nonneg _).trans he)
    nlinarith [abs_nonneg s, mul_nonneg (abs_nonneg e) (abs_nonneg q)]
  have h4 : e ^ 2 ≤ E ^ 2 := by rw [← sq_abs]; gcongr
  have h5 : q ^ 2 ≤ Q ^ 2 := by rw [← sq_abs]; gcongr
  rw [h1]; nlinarith

omit [Libm] in
theorem unitU_le (u n i : ℝ) : |(unitU u n i).x| ≤ 1 ∧ |(unitU u n i).y| ≤ 1 ∧ |(unitU u n i).z| ≤ 1 := by
  have h : (unitU u n i).x ^ 2 + (unitU u n i).y ^ 2 + (unitU u n i).z ^ 2 = 1 := by
    have h1 := Real.sin_sq_add_cos_sq u
    have h2 := Real.sin_sq_add_cos_sq n
    have h3 := Real.sin_sq_add_cos_sq i
    simp only [unitU, real_sin, real_cos]
    linear_combination (Real.cos i ^ 2 * Real.sin u ^ 2 + Real.cos u ^ 2) * h2 + Real.sin u ^ 2 * h3 + h1
  refine ⟨?_, ?_, ?_⟩ <;> refine abs_le_of_sq_le_sq ?_ (by norm_num) <;>
    nlinarith [sq_nonneg (unitU u n i).x, sq_nonneg (unitU u n i).y, sq_nonneg (unitU u n i).z]

omit [Libm] in
theorem unitV_le (u n i : ℝ) : |(unitV u n i).x| ≤ 1 ∧ |(unitV u n i).y| ≤ 1 ∧ |(unitV u n i).z| ≤ 1 := by
  have h : (unitV u n i).x ^ 2 + (unitV u n i).y ^ 2 + (unitV u n i).z ^ 2 = 1 := by
    have h1 := Real.sin_sq_add_cos_sq u
    have h2 := Real.sin_sq_add_cos_sq n
    have h3 := Real.sin_sq_add_cos_sq i
    simp only [unitV, real_sin, real_cos]
    linear_combination (Real.cos i ^ 2 * Real.cos u ^ 2 + Real.sin u ^ 2) * h2 + Real.cos u ^ 2 * h3 + h1
  refine ⟨?_, ?_, ?_⟩ <;> refine abs_le_of_sq_le_sq ?_ (by norm_num) <;>
    nlinarith [sq_nonneg (unitV u n i).x, sq_nonneg (unitV u n i).y, sq_nonneg (unitV u n i).z]


theorem t_invP (hL : Libm.Faithful) (h : Mid s t r τ) : Q (invP s t) (invP r τ) (167 / 10 ^ 2) (343 / 10 ^ 14) := by
  have g1 := (Q.int 10 true 1 1 (by norm_num)).mono (A' := 1) (δ' := 0) (by norm_num) le_rfl
  have g2 := (h.e.mul h.e).mono (A' := 194 / 10 ^ 3) (δ' := 881 / 10 ^ 16) (by norm_num) (by norm_num)
  have g3 := (g1.sub' g2 (1) (by have := ecc_sq h; rw [abs_le]; constructor <;> norm_num at * <;> linarith [this.1, this.2])).mono (A' := 1) (δ' := 883 / 10 ^ 16) (by norm_num) (by norm_num)
  have g4 := (h.a.mul g3).mono (A' := 105 / 10 ^ 1) (δ' := 123 / 10 ^ 14) (by norm_num) (by norm_num)
  have g5 := (g1.div g4 (6 / 10 ^ 1) (167 / 10 ^ 2) (invP_den h) (quot_le (m := 6 / 10 ^ 1) g1.mag (invP_den h) (by norm_num) (by norm_num))).mono (A' := 167 / 10 ^ 2) (δ' := 343 / 10 ^ 14) (by norm_num) (by norm_num)
  exact g5

theorem t_axn0 (hL : Libm.Faithful) (h : Mid s t r τ) : Q (axn s t) (axn r τ) (44 / 10 ^ 2) (187 / 10 ^ 14) := by
  have g1 := (h.peri.cos hL).mono (A' := 1) (δ' := 401 / 10 ^ 14) (by norm_num) (by norm_num)
  have g2 := (h.e.mul g1).mono (A' := 44 / 10 ^ 2) (δ' := 187 / 10 ^ 14) (by norm_num) (by norm_num)
  exact g2

theorem t_ayn0 (hL : Libm.Faithful) (h : Mid s t r τ) : Q (ayn s t) (ayn r τ) (444 / 10 ^ 3) (205 / 10 ^ 14) := by
  have g1 := (h.peri.sin hL).mono (A' := 1) (δ' := 401 / 10 ^ 14) (by norm_num) (by norm_num)
  have g2 := (h.e.mul g1).mono (A' := 44 / 10 ^ 2) (δ' := 187 / 10 ^ 14) (by norm_num) (by norm_num)
  have g3 := ((t_invP hL h).mul h.ay).mono (A' := 334 / 10 ^ 5) (δ' := 174 / 10 ^ 15) (by norm_num) (by norm_num)
  have g4 := (g2.add g3).mono (A' := 444 / 10 ^ 3) (δ' := 205 / 10 ^ 14) (by norm_num) (by norm_num)
  exact g4

/-- the eccentricity vector stays below 0.45 -/
theorem el_sq (hL : Libm.Faithful) (h : Mid s t r τ) : axn r τ ^ 2 + ayn r τ ^ 2 ≤ 0.45 ^ 2 := by
  have h1 : |invP r τ * ayCoef r τ| ≤ 1.7 * (1 / 500) := by
    rw [abs_mul]
    exact mul_le_mul ((t_invP hL h).mag.trans (by norm_num)) h.ay.mag (abs_nonneg _) (by norm_num)
  exact (plane_add (Real.sin_sq_add_cos_sq (perigeeR r τ)) h.e.mag h1).trans (by norm_num)
theorem axn_le (hL : Libm.Faithful) (h : Mid s t r τ) : |axn r τ| ≤ 45 / 10 ^ 2 :=
  abs_le_of_sq_le_sq (by have := el_sq hL h; norm_num at *; nlinarith [sq_nonneg (ayn r τ)]) (by norm_num)
theorem ayn_le (hL : Libm.Faithful) (h : Mid s t r τ) : |ayn r τ| ≤ 45 / 10 ^ 2 :=
  abs_le_of_sq_le_sq (by have := el_sq hL h; norm_num at *; nlinarith [sq_nonneg (axn r τ)]) (by norm_num)

theorem t_axn (hL : Libm.Faithful) (h : Mid s t r τ) : Q (axn s t) (axn r τ) (45 / 10 ^ 2) (187 / 10 ^ 14) := by
  have g1 := (t_axn0 hL h).bound (A' := 45 / 10 ^ 2) (axn_le hL h)
  exact g1

theorem t_ayn (hL : Libm.Faithful) (h : Mid s t r τ) : Q (ayn s t) (ayn r τ) (45 / 10 ^ 2) (205 / 10 ^ 14) := by
  have g1 := (t_ayn0 hL h).bound (A' := 45 / 10 ^ 2) (ayn_le hL h)
  exact g1

theorem t_keplerU (hL : Libm.Faithful) (h : Mid s t r τ) : QA (keplerU s t) (keplerU r τ) (63 / 10 ^ 1) (458 / 10 ^ 13) := by
  have g1 := (h.anom.add h.peri).mono (A' := 127 / 10 ^ 1) (δ' := 291 / 10 ^ 13) (by norm_num) (by norm_num)
  have g2 := (g1.add h.node).mono (A' := 191 / 10 ^ 1) (δ' := 312 / 10 ^ 13) (by norm_num) (by norm_num)
  have g3 := ((t_invP hL h).mul h.xl).mono (A' := 167 / 10 ^ 2) (δ' := 202 / 10 ^ 13) (by norm_num) (by norm_num)
  have g4 := (g3.mul (t_axn hL h)).mono (A' := 752 / 10 ^ 3) (δ' := 123 / 10 ^ 13) (by norm_num) (by norm_num)
  have g5 := (g4.angle).mono (A' := 753 / 10 ^ 3) (δ' := 123 / 10 ^ 13) (by norm_num) (by norm_num)
  have g6 := (g2.add g5).mono (A' := 199 / 10 ^ 1) (δ' := 436 / 10 ^ 13) (by norm_num) (by norm_num)
  have g7 := (g6.sub h.node).mono (A' := 263 / 10 ^ 1) (δ' := 457 / 10 ^ 13) (by norm_num) (by norm_num)
  have g8 := (g7.remT).mono (A' := 63 / 10 ^ 1) (δ' := 458 / 10 ^ 13) (by norm_num) (by norm_num)
  exact g8

theorem t_sinCos (hL : Libm.Faithful) (h : Mid s t r τ) :
    Q (sinCosE s t).1 (sinCosE r τ).1 1 (999 / 10 ^ 13) ∧ Q (sinCosE s t).2 (sinCosE r τ).2 1 (999 / 10 ^ 13) ∧
    (sinCosE r τ).1 ^ 2 + (sinCosE r τ).2 ^ 2 = 1 :=
  sinCos_near hL ((t_keplerU hL h).mono (by norm_num) le_rfl) ((t_axn hL h).mono (δ' := 205 / 10 ^ 14) (by norm_num) (by norm_num))
    ((t_ayn hL h).mono (δ' := 205 / 10 ^ 14) (by norm_num) (by norm_num)) (el_sq hL h) (by norm_num) _ _ (by norm_num)

/-- `1 - e cos E` -/
noncomputable def oneE (s : Satrec F) (t : F) : F := 1.0 - ((axn s t * (sinCosE s t).2) + (ayn s t * (sinCosE s t).1))
/-- `1 - e^2` with the long-period eccentricity vector -/
noncomputable def oneL (s : Satrec F) (t : F) : F := 1.0 - ((axn s t * axn s t) + (ayn s t * ayn s t))
/-- `e sin E` -/
noncomputable def eSin (s : Satrec F) (t : F) : F := (axn s t * (sinCosE s t).1) - (ayn s t * (sinCosE s t).2)

theorem oneE_bounds (hL : Libm.Faithful) (h : Mid s t r τ) : 0.55 ≤ oneE r τ ∧ oneE r τ ≤ 1.45 := by
  have h1 : |axn r τ * (sinCosE r τ).2 - ayn r τ * (-(sinCosE r τ).1)| ≤ 0.45 * 1 :=
    plane_cauchy (el_sq hL h) (by norm_num) (by have := (t_sinCos hL h).2.2; norm_num; linarith) (by norm_num)
  have h2 := abs_le.mp h1
  have e : oneE r τ = 1 - (axn r τ * (sinCosE r τ).2 + ayn r τ * (sinCosE r τ).1) := by unfold oneE; norm_num
  rw [e]; norm_num at *; constructor <;> linarith [h2.1, h2.2]

theorem eSin_le (hL : Libm.Faithful) (h : Mid s t r τ) : |eSin r τ| ≤ 0.45 := by
  have h1 : |axn r τ * (sinCosE r τ).1 - ayn r τ * (sinCosE r τ).2| ≤ 0.45 * 1 :=
    plane_cauchy (el_sq hL h) (by norm_num) (by have := (t_sinCos hL h).2.2; norm_num; linarith) (by norm_num)
  have e : eSin r τ = axn r τ * (sinCosE r τ).1 - ayn r τ * (sinCosE r τ).2 := rfl
  rw [e]; exact h1.trans (by norm_num)

theorem oneL_bounds (hL : Libm.Faithful) (h : Mid s t r τ) : 0.7975 ≤ oneL r τ ∧ oneL r τ ≤ 1 := by
  have h1 := el_sq hL h
  have e : oneL r τ = 1 - (axn r τ ^ 2 + ayn r τ ^ 2) := by unfold oneL; norm_num; ring
  rw [e]; norm_num at *
  constructor
  · linarith
  · nlinarith [sq_nonneg (axn r τ), sq_nonneg (ayn r τ)]

theorem t_oneE (hL : Libm.Faithful) (h : Mid s t r τ) : Q (oneE s t) (oneE r τ) (145 / 10 ^ 2) (942 / 10 ^ 13) := by
  have g1 := (Q.int 10 true 1 1 (by norm_num)).mono (A' := 1) (δ' := 0) (by norm_num) le_rfl
  have g2 := ((t_axn hL h).mul (t_sinCos hL h).2.1).mono (A' := 45 / 10 ^ 2) (δ' := 469 / 10 ^ 13) (by norm_num) (by norm_num)
  have g3 := ((t_ayn hL h).mul (t_sinCos hL h).1).mono (A' := 45 / 10 ^ 2) (δ' := 471 / 10 ^ 13) (by norm_num) (by norm_num)
  have g4 := (g2.add g3).mono (A' := 9 / 10 ^ 1) (δ' := 941 / 10 ^ 13) (by norm_num) (by norm_num)
  have g5 := (g1.sub' g4 (145 / 10 ^ 2) (by have := oneE_bounds hL h; change |oneE r τ| ≤ _; rw [abs_of_nonneg (by linarith [this.1])]; norm_num at *; exact this.2)).mono (A' := 145 / 10 ^ 2) (δ' := 942 / 10 ^ 13) (by norm_num) (by norm_num)
  exact g5

theorem t_oneL (hL : Libm.Faithful) (h : Mid s t r τ) : Q (oneL s t) (oneL r τ) (1) (356 / 10 ^ 14) := by
  have g1 := (Q.int 10 true 1 1 (by norm_num)).mono (A' := 1) (δ' := 0) (by norm_num) le_rfl
  have g2 := ((t_axn hL h).mul (t_axn hL h)).mono (A' := 203 / 10 ^ 3) (δ' := 169 / 10 ^ 14) (by norm_num) (by norm_num)
  have g3 := ((t_ayn hL h).mul (t_ayn hL h)).mono (A' := 203 / 10 ^ 3) (δ' := 185 / 10 ^ 14) (by norm_num) (by norm_num)
  have g4 := (g2.add g3).mono (A' := 406 / 10 ^ 3) (δ' := 355 / 10 ^ 14) (by norm_num) (by norm_num)
  have g5 := (g1.sub' g4 (1) (by have := oneL_bounds hL h; change |oneL r τ| ≤ _; rw [abs_of_nonneg (by linarith [this.1])]; norm_num at *; exact this.2)).mono (A' := 1) (δ' := 356 / 10 ^ 14) (by norm_num) (by norm_num)
  exact g5

theorem t_eSin (hL : Libm.Faithful) (h : Mid s t r τ) : Q (eSin s t) (eSin r τ) (45 / 10 ^ 2) (941 / 10 ^ 13) := by
  have g1 := ((t_axn hL h).mul (t_sinCos hL h).1).mono (A' := 45 / 10 ^ 2) (δ' := 469 / 10 ^ 13) (by norm_num) (by norm_num)
  have g2 := ((t_ayn hL h).mul (t_sinCos hL h).2.1).mono (A' := 45 / 10 ^ 2) (δ' := 471 / 10 ^ 13) (by norm_num) (by norm_num)
  have g3 := (g1.sub' g2 (45 / 10 ^ 2) (by have := eSin_le hL h; norm_num at *; exact this)).mono (A' := 45 / 10 ^ 2) (δ' := 941 / 10 ^ 13) (by norm_num) (by norm_num)
  exact g3

theorem t_semiLatus (hL : Libm.Faithful) (h : Mid s t r τ) : Q (Spec.semiLatus s t) (Spec.semiLatus r τ) (105 / 10 ^ 1) (377 / 10 ^ 13) := by
  have g1 := (h.a.mul (t_oneL hL h)).mono (A' := 105 / 10 ^ 1) (δ' := 377 / 10 ^ 13) (by norm_num) (by norm_num)
  exact g1

theorem t_radius0 (hL : Libm.Faithful) (h : Mid s t r τ) : Q (radius0 s t) (radius0 r τ) (153 / 10 ^ 1) (99 / 10 ^ 11) := by
  have g1 := (h.a.mul (t_oneE hL h)).mono (A' := 153 / 10 ^ 1) (δ' := 99 / 10 ^ 11) (by norm_num) (by norm_num)
  exact g1

theorem a_pos (h : Mid s t r τ) : 0 < semiMajor r τ := by have := h.a_lo; linarith

theorem semiLatus_ge (hL : Libm.Faithful) (h : Mid s t r τ) : 59 / 10 ^ 2 ≤ Spec.semiLatus r τ := by
  have h1 := (oneL_bounds hL h).1
  have h2 := h.a_lo
  have e : Spec.semiLatus r τ = semiMajor r τ * oneL r τ := rfl
  rw [e]; norm_num at *; nlinarith

theorem radius0_ge (hL : Libm.Faithful) (h : Mid s t r τ) : 41 / 10 ^ 2 ≤ radius0 r τ := by
  have h1 := (oneE_bounds hL h).1
  have h2 := h.a_lo
  have e : radius0 r τ = semiMajor r τ * oneE r τ := rfl
  rw [e]; norm_num at *; nlinarith

theorem t_beta (hL : Libm.Faithful) (h : Mid s t r τ) : Q (beta s t) (beta r τ) (1) (401 / 10 ^ 14) := by
  have g1 := ((t_oneL hL h).sqrt (89 / 10 ^ 2) (1) (by have := (oneL_bounds hL h).1; norm_num at *; linarith) (by norm_num)).mono (A' := 1) (δ' := 401 / 10 ^ 14) (by norm_num) (by norm_num)
  exact g1

omit [Libm] in
theorem beta_nonneg (r : Satrec ℝ) (τ : ℝ) : 0 ≤ beta r τ := Real.sqrt_nonneg _
omit [Libm] in
theorem beta_den (r : Satrec ℝ) (τ : ℝ) : 1 ≤ |(1.0 : ℝ) + beta r τ| := by
  have := beta_nonneg r τ
  rw [abs_of_nonneg (by norm_num; linarith)]; norm_num; linarith

theorem t_esinE (hL : Libm.Faithful) (h : Mid s t r τ) : Q (esinE s t) (esinE r τ) (45 / 10 ^ 2) (96 / 10 ^ 12) := by
  have g1 := (Q.int 10 true 1 1 (by norm_num)).mono (A' := 1) (δ' := 0) (by norm_num) le_rfl
  have g2 := (g1.add (t_beta hL h)).mono (A' := 2) (δ' := 402 / 10 ^ 14) (by norm_num) (by norm_num)
  have g3 := ((t_eSin hL h).div g2 (1) (45 / 10 ^ 2) (beta_den r τ) (quot_le (m := 1) (t_eSin hL h).mag (beta_den r τ) (by norm_num) (by norm_num))).mono (A' := 45 / 10 ^ 2) (δ' := 96 / 10 ^ 12) (by norm_num) (by norm_num)
  exact g3

theorem t_ratio (hL : Libm.Faithful) (h : Mid s t r τ) : Q (semiMajor s t / radius0 s t) (semiMajor r τ / radius0 r τ) (182 / 10 ^ 2) (313 / 10 ^ 12) := by
  have g1 := (Q.ratio h.a (t_oneE hL h) (55 / 10 ^ 2) (by have := (oneE_bounds hL h).1; norm_num at *; linarith) (by have := h.a_lo; linarith) (by norm_num) (by norm_num) (by norm_num) (by norm_num) (by norm_num)).mono (A' := 182 / 10 ^ 2) (δ' := 313 / 10 ^ 12) (by norm_num) (by norm_num)
  exact g1

/-- in exact arithmetic the argument of latitude has a sine and a cosine -/
theorem latitude_unit (hL : Libm.Faithful) (h : Mid s t r τ) : cosU r τ ^ 2 + sinU r τ ^ 2 = 1 := by
  have hu := (t_sinCos hL h).2.2
  have hE := (oneE_bounds hL h).1
  have hb := beta_nonneg r τ
  have hb2 : beta r τ ^ 2 = 1 - (axn r τ ^ 2 + ayn r τ ^ 2) := by
    have e : beta r τ = Real.sqrt (oneL r τ) := rfl
    rw [e, Real.sq_sqrt (by have := (oneL_bounds hL h).1; norm_num at *; linarith)]
    unfold oneL; norm_num; ring
  have he : esinE r τ * (1 + beta r τ) = axn r τ * (sinCosE r τ).1 - ayn r τ * (sinCosE r τ).2 := by
    have e : esinE r τ = (axn r τ * (sinCosE r τ).1 - ayn r τ * (sinCosE r τ).2) / ((1.0 : ℝ) + beta r τ) := rfl
    rw [e]
    have : (1.0 : ℝ) + beta r τ ≠ 0 := by have := beta_den r τ; intro h0; rw [h0] at this; norm_num at this
    norm_num at this ⊢
    field_simp
  have hr : semiMajor r τ / radius0 r τ = 1 / oneE r τ := by
    have e : radius0 r τ = semiMajor r τ * oneE r τ := rfl
    have := a_pos h
    have h0 : oneE r τ ≠ 0 := by norm_num at hE; intro h0; rw [h0] at hE; norm_num at hE
    rw [e]; field_simp
  have e1 : sinU r τ = semiMajor r τ / radius0 r τ * ((sinCosE r τ).1 - ayn r τ - axn r τ * esinE r τ) := rfl
  have e2 : cosU r τ = semiMajor r τ / radius0 r τ * ((sinCosE r τ).2 - axn r τ + ayn r τ * esinE r τ) := rfl
  have e3 : oneE r τ = 1 - (axn r τ * (sinCosE r τ).2 + ayn r τ * (sinCosE r τ).1) := by unfold oneE; norm_num
  have h0 : 0 < oneE r τ := by norm_num at hE; linarith
  rw [e1, e2, hr, mul_pow, mul_pow, ← mul_add, div_pow, one_pow, div_mul_eq_mul_div, one_mul, div_eq_one_iff_eq (by positivity), e3]
  generalize (sinCosE r τ).1 = S at *
  generalize (sinCosE r τ).2 = C at *
  generalize axn r τ = p at *
  generalize ayn r τ = q at *
  generalize esinE r τ = ε at *
  generalize beta r τ = β at *
  linear_combination (1 - (p ^ 2 + q ^ 2)) * hu - (p * S - q * C - ε + ε * β) * he + ε ^ 2 * hb2

theorem sinU_le (hL : Libm.Faithful) (h : Mid s t r τ) : |sinU r τ| ≤ 1 :=
  abs_le_of_sq_le_sq (by have := latitude_unit hL h; nlinarith [sq_nonneg (cosU r τ)]) (by norm_num)
theorem cos2u_le (hL : Libm.Faithful) (h : Mid s t r τ) : |(1.0 : ℝ) - 2.0 * sinU r τ * sinU r τ| ≤ 1 := by
  have h1 := latitude_unit hL h
  rw [abs_le]; norm_num
  constructor <;> nlinarith [sq_nonneg (cosU r τ), sq_nonneg (sinU r τ)]
theorem cosU_le (hL : Libm.Faithful) (h : Mid s t r τ) : |cosU r τ| ≤ 1 :=
  abs_le_of_sq_le_sq (by have := latitude_unit hL h; nlinarith [sq_nonneg (sinU r τ)]) (by norm_num)

theorem t_sinU (hL : Libm.Faithful) (h : Mid s t r τ) : Q (sinU s t) (sinU r τ) (1) (788 / 10 ^ 12) := by
  have g1 := ((t_sinCos hL h).1.sub (t_ayn hL h)).mono (A' := 145 / 10 ^ 2) (δ' := 102 / 10 ^ 12) (by norm_num) (by norm_num)
  have g2 := ((t_axn hL h).mul (t_esinE hL h)).mono (A' := 203 / 10 ^ 3) (δ' := 441 / 10 ^ 13) (by norm_num) (by norm_num)
  have g3 := (g1.sub g2).mono (A' := 166 / 10 ^ 2) (δ' := 147 / 10 ^ 12) (by norm_num) (by norm_num)
  have g4 := ((t_ratio hL h).mul g3).mono (A' := 303 / 10 ^ 2) (δ' := 788 / 10 ^ 12) (by norm_num) (by norm_num)
  have g5 := g4.bound (A' := 1) (sinU_le hL h)
  exact g5

theorem t_cosU (hL : Libm.Faithful) (h : Mid s t r τ) : Q (cosU s t) (cosU r τ) (1) (788 / 10 ^ 12) := by
  have g1 := ((t_sinCos hL h).2.1.sub (t_axn hL h)).mono (A' := 145 / 10 ^ 2) (δ' := 102 / 10 ^ 12) (by norm_num) (by norm_num)
  have g2 := ((t_ayn hL h).mul (t_esinE hL h)).mono (A' := 203 / 10 ^ 3) (δ' := 442 / 10 ^ 13) (by norm_num) (by norm_num)
  have g3 := (g1.add g2).mono (A' := 166 / 10 ^ 2) (δ' := 147 / 10 ^ 12) (by norm_num) (by norm_num)
  have g4 := ((t_ratio hL h).mul g3).mono (A' := 303 / 10 ^ 2) (δ' := 788 / 10 ^ 12) (by norm_num) (by norm_num)
  have g5 := g4.bound (A' := 1) (cosU_le hL h)
  exact g5

theorem t_cos2u (hL : Libm.Faithful) (h : Mid s t r τ) : Q (cos2u s t) (cos2u r τ) (1) (317 / 10 ^ 11) := by
  have g1 := (Q.int 10 true 1 1 (by norm_num)).mono (A' := 1) (δ' := 0) (by norm_num) le_rfl
  have g2 := (Q.int 20 true 1 2 (by norm_num)).mono (A' := 2) (δ' := 0) (by norm_num) le_rfl
  have g3 := (g2.mul (t_sinU hL h)).mono (A' := 2) (δ' := 158 / 10 ^ 11) (by norm_num) (by norm_num)
  have g4 := (g3.mul (t_sinU hL h)).mono (A' := 2) (δ' := 316 / 10 ^ 11) (by norm_num) (by norm_num)
  have g5 := (g1.sub' g4 (1) (cos2u_le hL h)).mono (A' := 1) (δ' := 317 / 10 ^ 11) (by norm_num) (by norm_num)
  exact g5

theorem t_sin2u (hL : Libm.Faithful) (h : Mid s t r τ) : Q (sin2u s t) (sin2u r τ) (1) (316 / 10 ^ 11) := by
  have g1 := ((t_cosU hL h).add (t_cosU hL h)).mono (A' := 2) (δ' := 158 / 10 ^ 11) (by norm_num) (by norm_num)
  have g2 := (g1.mul (t_sinU hL h)).mono (A' := 2) (δ' := 316 / 10 ^ 11) (by norm_num) (by norm_num)
  have g3 := g2.bound (A' := 1) (by have h1 := latitude_unit hL h; rw [abs_le]; constructor <;> nlinarith [sq_nonneg (cosU r τ + sinU r τ), sq_nonneg (cosU r τ - sinU r τ)])
  exact g3

theorem semiLatus_den (hL : Libm.Faithful) (h : Mid s t r τ) : 59 / 10 ^ 2 ≤ |Spec.semiLatus r τ| := (semiLatus_ge hL h).trans (le_abs_self _)
theorem radius0_den (hL : Libm.Faithful) (h : Mid s t r τ) : 41 / 10 ^ 2 ≤ |radius0 r τ| := (radius0_ge hL h).trans (le_abs_self _)

theorem t_invL (hL : Libm.Faithful) (h : Mid s t r τ) : Q (1.0 / Spec.semiLatus s t) ((1.0 : ℝ) / Spec.semiLatus r τ) (17 / 10 ^ 1) (109 / 10 ^ 12) := by
  have g1 := (Q.int 10 true 1 1 (by norm_num)).mono (A' := 1) (δ' := 0) (by norm_num) le_rfl
  have g2 := (g1.div (t_semiLatus hL h) (59 / 10 ^ 2) (17 / 10 ^ 1) (semiLatus_den hL h) (quot_le (m := 59 / 10 ^ 2) g1.mag (semiLatus_den hL h) (by norm_num) (by norm_num))).mono (A' := 17 / 10 ^ 1) (δ' := 109 / 10 ^ 12) (by norm_num) (by norm_num)
  exact g2

theorem t_k1 (hL : Libm.Faithful) (h : Mid s t r τ) : Q (k1 s t) (k1 r τ) (927 / 10 ^ 6) (595 / 10 ^ 16) := by
  have g1 := Q.dyadic 5 true 1 1 1 (5 / 10 ^ 1) (by norm_num) (by norm_num)
  have g2 := (g1.mul q_J2).mono (A' := 545 / 10 ^ 6) (δ' := 122 / 10 ^ 21) (by norm_num) (by norm_num)
  have g3 := (g2.mul (t_invL hL h)).mono (A' := 927 / 10 ^ 6) (δ' := 595 / 10 ^ 16) (by norm_num) (by norm_num)
  exact g3

theorem t_k2 (hL : Libm.Faithful) (h : Mid s t r τ) : Q (Spec.k2 s t) (Spec.k2 r τ) (158 / 10 ^ 5) (203 / 10 ^ 15) := by
  have g1 := ((t_k1 hL h).mul (t_invL hL h)).mono (A' := 158 / 10 ^ 5) (δ' := 203 / 10 ^ 15) (by norm_num) (by norm_num)
  exact g1

theorem t_radius (hL : Libm.Faithful) (h : Mid s t r τ) : Q (radius s t) (radius r τ) (156 / 10 ^ 1) (104 / 10 ^ 11) := by
  have g1 := (Q.int 10 true 1 1 (by norm_num)).mono (A' := 1) (δ' := 0) (by norm_num) le_rfl
  have g2 := Q.dyadic 15 true 1 3 1 (15 / 10 ^ 1) (by norm_num) (by norm_num)
  have g3 := Q.dyadic 5 true 1 1 1 (5 / 10 ^ 1) (by norm_num) (by norm_num)
  have g4 := (g2.mul (t_k2 hL h)).mono (A' := 237 / 10 ^ 5) (δ' := 305 / 10 ^ 15) (by norm_num) (by norm_num)
  have g5 := (g4.mul (t_beta hL h)).mono (A' := 237 / 10 ^ 5) (δ' := 315 / 10 ^ 15) (by norm_num) (by norm_num)
  have g6 := (g5.mul h.c3).mono (A' := 948 / 10 ^ 5) (δ' := 15 / 10 ^ 13) (by norm_num) (by norm_num)
  have g7 := (g1.sub g6).mono (A' := 101 / 10 ^ 2) (δ' := 151 / 10 ^ 14) (by norm_num) (by norm_num)
  have g8 := ((t_radius0 hL h).mul g7).mono (A' := 155 / 10 ^ 1) (δ' := 103 / 10 ^ 11) (by norm_num) (by norm_num)
  have g9 := (g3.mul (t_k1 hL h)).mono (A' := 464 / 10 ^ 6) (δ' := 298 / 10 ^ 16) (by norm_num) (by norm_num)
  have g10 := (g9.mul h.c1).mono (A' := 928 / 10 ^ 6) (δ' := 107 / 10 ^ 15) (by norm_num) (by norm_num)
  have g11 := (g10.mul (t_cos2u hL h)).mono (A' := 928 / 10 ^ 6) (δ' := 305 / 10 ^ 14) (by norm_num) (by norm_num)
  have g12 := (g8.add g11).mono (A' := 156 / 10 ^ 1) (δ' := 104 / 10 ^ 11) (by norm_num) (by norm_num)
  exact g12

theorem t_argLat (hL : Libm.Faithful) (h : Mid s t r τ) : QA (argLat s t) (argLat r τ) (321 / 10 ^ 2) (318 / 10 ^ 11) := by
  have g1 := ((t_sinU hL h).atan2 hL (t_cosU hL h) (latitude_unit hL h) (by norm_num)).mono (A' := 32 / 10 ^ 1) (δ' := 316 / 10 ^ 11) (by norm_num) (by norm_num)
  have g2 := Q.dyadic 25 true 2 1 2 (25 / 10 ^ 2) (by norm_num) (by norm_num)
  have g3 := (g2.mul (t_k2 hL h)).mono (A' := 395 / 10 ^ 6) (δ' := 508 / 10 ^ 16) (by norm_num) (by norm_num)
  have g4 := (g3.mul h.c7).mono (A' := 316 / 10 ^ 5) (δ' := 446 / 10 ^ 15) (by norm_num) (by norm_num)
  have g5 := (g4.mul (t_sin2u hL h)).mono (A' := 316 / 10 ^ 5) (δ' := 105 / 10 ^ 13) (by norm_num) (by norm_num)
  have g6 := (g5.angle).mono (A' := 317 / 10 ^ 5) (δ' := 105 / 10 ^ 13) (by norm_num) (by norm_num)
  have g7 := (g1.sub g6).mono (A' := 321 / 10 ^ 2) (δ' := 318 / 10 ^ 11) (by norm_num) (by norm_num)
  exact g7

theorem t_nodeS (hL : Libm.Faithful) (h : Mid s t r τ) : QA (nodeS s t) (nodeS r τ) (631 / 10 ^ 2) (983 / 10 ^ 14) := by
  have g1 := Q.dyadic 15 true 1 3 1 (15 / 10 ^ 1) (by norm_num) (by norm_num)
  have g2 := (h.incl.angle).mono (A' := 401 / 10 ^ 2) (δ' := 1 / 10 ^ 11) (by norm_num) (by norm_num)
  have g3 := (g2.cos hL).mono (A' := 1) (δ' := 101 / 10 ^ 13) (by norm_num) (by norm_num)
  have g4 := (g1.mul (t_k2 hL h)).mono (A' := 237 / 10 ^ 5) (δ' := 305 / 10 ^ 15) (by norm_num) (by norm_num)
  have g5 := (g4.mul g3).mono (A' := 237 / 10 ^ 5) (δ' := 329 / 10 ^ 15) (by norm_num) (by norm_num)
  have g6 := (g5.mul (t_sin2u hL h)).mono (A' := 237 / 10 ^ 5) (δ' := 782 / 10 ^ 14) (by norm_num) (by norm_num)
  have g7 := (g6.angle).mono (A' := 238 / 10 ^ 5) (δ' := 782 / 10 ^ 14) (by norm_num) (by norm_num)
  have g8 := (h.node.add g7).mono (A' := 631 / 10 ^ 2) (δ' := 983 / 10 ^ 14) (by norm_num) (by norm_num)
  exact g8

theorem t_inclS (hL : Libm.Faithful) (h : Mid s t r τ) : QA (inclS s t) (inclS r τ) (402 / 10 ^ 2) (179 / 10 ^ 13) := by
  have g1 := Q.dyadic 15 true 1 3 1 (15 / 10 ^ 1) (by norm_num) (by norm_num)
  have g2 := (h.incl.angle).mono (A' := 401 / 10 ^ 2) (δ' := 1 / 10 ^ 11) (by norm_num) (by norm_num)
  have g3 := (g2.cos hL).mono (A' := 1) (δ' := 101 / 10 ^ 13) (by norm_num) (by norm_num)
  have g4 := (g2.sin hL).mono (A' := 1) (δ' := 101 / 10 ^ 13) (by norm_num) (by norm_num)
  have g5 := (g1.mul (t_k2 hL h)).mono (A' := 237 / 10 ^ 5) (δ' := 305 / 10 ^ 15) (by norm_num) (by norm_num)
  have g6 := (g5.mul g3).mono (A' := 237 / 10 ^ 5) (δ' := 329 / 10 ^ 15) (by norm_num) (by norm_num)
  have g7 := (g6.mul g4).mono (A' := 237 / 10 ^ 5) (δ' := 353 / 10 ^ 15) (by norm_num) (by norm_num)
  have g8 := (g7.mul (t_cos2u hL h)).mono (A' := 237 / 10 ^ 5) (δ' := 787 / 10 ^ 14) (by norm_num) (by norm_num)
  have g9 := (h.incl.add g8).mono (A' := 401 / 10 ^ 2) (δ' := 179 / 10 ^ 13) (by norm_num) (by norm_num)
  have g10 := (g9.angle).mono (A' := 402 / 10 ^ 2) (δ' := 179 / 10 ^ 13) (by norm_num) (by norm_num)
  exact g10

theorem pow15_le (h : Mid s t r τ) : semiMajor r τ ^ (OfScientific.ofScientific 15 true 1 : ℝ) ≤ 35 := by
  have h0 := a_pos h
  have h1 : semiMajor r τ ≤ 105 / 10 := (le_abs_self _).trans h.a.mag
  have e : (OfScientific.ofScientific 15 true 1 : ℝ) = 1 + 1 / 2 := by norm_num
  rw [e, Real.rpow_add h0, Real.rpow_one, ← Real.sqrt_eq_rpow]
  have h2 : Real.sqrt (semiMajor r τ) ≤ 3.25 := Real.sqrt_le_iff.mpr ⟨by norm_num, by norm_num at *; linarith⟩
  have h3 := Real.sqrt_nonneg (semiMajor r τ)
  norm_num at *; nlinarith

theorem pow15_ge (h : Mid s t r τ) : 64 / 10 ^ 2 ≤ semiMajor r τ ^ (OfScientific.ofScientific 15 true 1 : ℝ) := by
  have h0 := a_pos h
  have h1 := h.a_lo
  have e : (OfScientific.ofScientific 15 true 1 : ℝ) = 1 + 1 / 2 := by norm_num
  rw [e, Real.rpow_add h0, Real.rpow_one, ← Real.sqrt_eq_rpow]
  have h2 : 0.86 ≤ Real.sqrt (semiMajor r τ) := Real.le_sqrt_of_sq_le (by norm_num at *; linarith)
  norm_num at *; nlinarith

theorem t_motion (hL : Libm.Faithful) (h : Mid s t r τ) : Q (motion s t) (motion r τ) (117 / 10 ^ 3) (772 / 10 ^ 14) := by
  have g1 := Q.dyadic 15 true 1 3 1 (15 / 10 ^ 1) (by norm_num) (by norm_num)
  have g2 := (Q.powf hL h.a g1 4 (3 / 4) 35 (601 / 10 ^ 15) (64 / 10 ^ 2) h.a_lo (pow15_le h) (pow15_ge h) (by norm_num) (by norm_num) (by norm_num) (by norm_num) (by norm_num) (by norm_num) (by norm_num)).mono (A' := 35) (δ' := 422 / 10 ^ 13) (by norm_num) (by norm_num)
  have g3 := (q_XKE.div g2 (64 / 10 ^ 2) (117 / 10 ^ 3) ((pow15_ge h).trans (le_abs_self _)) (quot_le (m := 64 / 10 ^ 2) q_XKE.mag ((pow15_ge h).trans (le_abs_self _)) (by norm_num) (by norm_num))).mono (A' := 117 / 10 ^ 3) (δ' := 772 / 10 ^ 14) (by norm_num) (by norm_num)
  exact g3

theorem t_rdot (hL : Libm.Faithful) (h : Mid s t r τ) : Q (rdot s t) (rdot r τ) (36 / 10 ^ 1) (943 / 10 ^ 11) := by
  have g1 := (h.a.sqrt (86 / 10 ^ 2) (325 / 10 ^ 2) (by have := h.a_lo; norm_num at *; linarith) (by norm_num)).mono (A' := 325 / 10 ^ 2) (δ' := 35 / 10 ^ 14) (by norm_num) (by norm_num)
  have g2 := (g1.mul (t_eSin hL h)).mono (A' := 147 / 10 ^ 2) (δ' := 306 / 10 ^ 12) (by norm_num) (by norm_num)
  have g3 := (g2.div (t_radius0 hL h) (41 / 10 ^ 2) (359 / 10 ^ 2) (radius0_den hL h) (quot_le (m := 41 / 10 ^ 2) g2.mag (radius0_den hL h) (by norm_num) (by norm_num))).mono (A' := 359 / 10 ^ 2) (δ' := 942 / 10 ^ 11) (by norm_num) (by norm_num)
  have g4 := ((t_motion hL h).mul (t_k1 hL h)).mono (A' := 109 / 10 ^ 6) (δ' := 142 / 10 ^ 16) (by norm_num) (by norm_num)
  have g5 := (g4.mul h.c1).mono (A' := 218 / 10 ^ 6) (δ' := 394 / 10 ^ 16) (by norm_num) (by norm_num)
  have g6 := (g5.mul (t_sin2u hL h)).mono (A' := 218 / 10 ^ 6) (δ' := 729 / 10 ^ 15) (by norm_num) (by norm_num)
  have g7 := (g6.div q_XKE (743 / 10 ^ 4) (294 / 10 ^ 5) XKE_ge (quot_le (m := 743 / 10 ^ 4) g6.mag XKE_ge (by norm_num) (by norm_num))).mono (A' := 294 / 10 ^ 5) (δ' := 982 / 10 ^ 14) (by norm_num) (by norm_num)
  have g8 := (g3.sub g7).mono (A' := 36 / 10 ^ 1) (δ' := 943 / 10 ^ 11) (by norm_num) (by norm_num)
  exact g8

theorem t_rfdot (hL : Libm.Faithful) (h : Mid s t r τ) : Q (rfdot s t) (rfdot r τ) (795 / 10 ^ 2) (194 / 10 ^ 10) := by
  have g1 := ((t_semiLatus hL h).sqrt (76 / 10 ^ 2) (325 / 10 ^ 2) (by have := semiLatus_ge hL h; norm_num at *; linarith) (by norm_num)).mono (A' := 325 / 10 ^ 2) (δ' := 497 / 10 ^ 13) (by norm_num) (by norm_num)
  have g2 := (g1.div (t_radius0 hL h) (41 / 10 ^ 2) (793 / 10 ^ 2) (radius0_den hL h) (quot_le (m := 41 / 10 ^ 2) g1.mag (radius0_den hL h) (by norm_num) (by norm_num))).mono (A' := 793 / 10 ^ 2) (δ' := 193 / 10 ^ 10) (by norm_num) (by norm_num)
  have g3 := Q.dyadic 15 true 1 3 1 (15 / 10 ^ 1) (by norm_num) (by norm_num)
  have g4 := (h.c1.mul (t_cos2u hL h)).mono (A' := 2) (δ' := 645 / 10 ^ 11) (by norm_num) (by norm_num)
  have g5 := (g3.mul h.c3).mono (A' := 6) (δ' := 151 / 10 ^ 12) (by norm_num) (by norm_num)
  have g6 := (g4.add g5).mono (A' := 8) (δ' := 661 / 10 ^ 11) (by norm_num) (by norm_num)
  have g7 := ((t_motion hL h).mul (t_k1 hL h)).mono (A' := 109 / 10 ^ 6) (δ' := 142 / 10 ^ 16) (by norm_num) (by norm_num)
  have g8 := (g7.mul g6).mono (A' := 872 / 10 ^ 6) (δ' := 835 / 10 ^ 15) (by norm_num) (by norm_num)
  have g9 := (g8.div q_XKE (743 / 10 ^ 4) (118 / 10 ^ 4) XKE_ge (quot_le (m := 743 / 10 ^ 4) g8.mag XKE_ge (by norm_num) (by norm_num))).mono (A' := 118 / 10 ^ 4) (δ' := 113 / 10 ^ 13) (by norm_num) (by norm_num)
  have g10 := (g2.add g9).mono (A' := 795 / 10 ^ 2) (δ' := 194 / 10 ^ 10) (by norm_num) (by norm_num)
  exact g10

theorem t_unitUx (hL : Libm.Faithful) (h : Mid s t r τ) : Q (unitU (argLat s t) (nodeS s t) (inclS s t)).x (unitU (argLat r τ) (nodeS r τ) (inclS r τ)).x (1) (643 / 10 ^ 11) := by
  have g1 := ((t_argLat hL h).sin hL).mono (A' := 1) (δ' := 319 / 10 ^ 11) (by norm_num) (by norm_num)
  have g2 := ((t_argLat hL h).cos hL).mono (A' := 1) (δ' := 319 / 10 ^ 11) (by norm_num) (by norm_num)
  have g3 := ((t_nodeS hL h).sin hL).mono (A' := 1) (δ' := 984 / 10 ^ 14) (by norm_num) (by norm_num)
  have g4 := ((t_nodeS hL h).cos hL).mono (A' := 1) (δ' := 984 / 10 ^ 14) (by norm_num) (by norm_num)
  have g5 := ((t_inclS hL h).sin hL).mono (A' := 1) (δ' := 18 / 10 ^ 12) (by norm_num) (by norm_num)
  have g6 := ((t_inclS hL h).cos hL).mono (A' := 1) (δ' := 18 / 10 ^ 12) (by norm_num) (by norm_num)
  have g7 := (g3.neg).mono (A' := 1) (δ' := 984 / 10 ^ 14) (by norm_num) (by norm_num)
  have g8 := (g7.mul g6).mono (A' := 1) (δ' := 279 / 10 ^ 13) (by norm_num) (by norm_num)
  have g9 := (g8.mul g1).mono (A' := 1) (δ' := 322 / 10 ^ 11) (by norm_num) (by norm_num)
  have g10 := (g4.mul g2).mono (A' := 1) (δ' := 32 / 10 ^ 10) (by norm_num) (by norm_num)
  have g11 := (g9.add g10).mono (A' := 2) (δ' := 643 / 10 ^ 11) (by norm_num) (by norm_num)
  have g12 := g11.bound (A' := 1) (unitU_le (argLat r τ) (nodeS r τ) (inclS r τ)).1
  exact g12

theorem t_unitUy (hL : Libm.Faithful) (h : Mid s t r τ) : Q (unitU (argLat s t) (nodeS s t) (inclS s t)).y (unitU (argLat r τ) (nodeS r τ) (inclS r τ)).y (1) (643 / 10 ^ 11) := by
  have g1 := ((t_argLat hL h).sin hL).mono (A' := 1) (δ' := 319 / 10 ^ 11) (by norm_num) (by norm_num)
  have g2 := ((t_argLat hL h).cos hL).mono (A' := 1) (δ' := 319 / 10 ^ 11) (by norm_num) (by norm_num)
  have g3 := ((t_nodeS hL h).sin hL).mono (A' := 1) (δ' := 984 / 10 ^ 14) (by norm_num) (by norm_num)
  have g4 := ((t_nodeS hL h).cos hL).mono (A' := 1) (δ' := 984 / 10 ^ 14) (by norm_num) (by norm_num)
  have g5 := ((t_inclS hL h).sin hL).mono (A' := 1) (δ' := 18 / 10 ^ 12) (by norm_num) (by norm_num)
  have g6 := ((t_inclS hL h).cos hL).mono (A' := 1) (δ' := 18 / 10 ^ 12) (by norm_num) (by norm_num)
  have g7 := (g4.mul g6).mono (A' := 1) (δ' := 279 / 10 ^ 13) (by norm_num) (by norm_num)
  have g8 := (g7.mul g1).mono (A' := 1) (δ' := 322 / 10 ^ 11) (by norm_num) (by norm_num)
  have g9 := (g3.mul g2).mono (A' := 1) (δ' := 32 / 10 ^ 10) (by norm_num) (by norm_num)
  have g10 := (g8.add g9).mono (A' := 2) (δ' := 643 / 10 ^ 11) (by norm_num) (by norm_num)
  have g11 := g10.bound (A' := 1) (unitU_le (argLat r τ) (nodeS r τ) (inclS r τ)).2.1
  exact g11

theorem t_unitUz (hL : Libm.Faithful) (h : Mid s t r τ) : Q (unitU (argLat s t) (nodeS s t) (inclS s t)).z (unitU (argLat r τ) (nodeS r τ) (inclS r τ)).z (1) (321 / 10 ^ 11) := by
  have g1 := ((t_argLat hL h).sin hL).mono (A' := 1) (δ' := 319 / 10 ^ 11) (by norm_num) (by norm_num)
  have g2 := ((t_argLat hL h).cos hL).mono (A' := 1) (δ' := 319 / 10 ^ 11) (by norm_num) (by norm_num)
  have g3 := ((t_nodeS hL h).sin hL).mono (A' := 1) (δ' := 984 / 10 ^ 14) (by norm_num) (by norm_num)
  have g4 := ((t_nodeS hL h).cos hL).mono (A' := 1) (δ' := 984 / 10 ^ 14) (by norm_num) (by norm_num)
  have g5 := ((t_inclS hL h).sin hL).mono (A' := 1) (δ' := 18 / 10 ^ 12) (by norm_num) (by norm_num)
  have g6 := ((t_inclS hL h).cos hL).mono (A' := 1) (δ' := 18 / 10 ^ 12) (by norm_num) (by norm_num)
  have g7 := (g5.mul g1).mono (A' := 1) (δ' := 321 / 10 ^ 11) (by norm_num) (by norm_num)
  have g8 := g7.bound (A' := 1) (unitU_le (argLat r τ) (nodeS r τ) (inclS r τ)).2.2
  exact g8

theorem t_unitVx (hL : Libm.Faithful) (h : Mid s t r τ) : Q (unitV (argLat s t) (nodeS s t) (inclS s t)).x (unitV (argLat r τ) (nodeS r τ) (inclS r τ)).x (1) (643 / 10 ^ 11) := by
  have g1 := ((t_argLat hL h).sin hL).mono (A' := 1) (δ' := 319 / 10 ^ 11) (by norm_num) (by norm_num)
  have g2 := ((t_argLat hL h).cos hL).mono (A' := 1) (δ' := 319 / 10 ^ 11) (by norm_num) (by norm_num)
  have g3 := ((t_nodeS hL h).sin hL).mono (A' := 1) (δ' := 984 / 10 ^ 14) (by norm_num) (by norm_num)
  have g4 := ((t_nodeS hL h).cos hL).mono (A' := 1) (δ' := 984 / 10 ^ 14) (by norm_num) (by norm_num)
  have g5 := ((t_inclS hL h).sin hL).mono (A' := 1) (δ' := 18 / 10 ^ 12) (by norm_num) (by norm_num)
  have g6 := ((t_inclS hL h).cos hL).mono (A' := 1) (δ' := 18 / 10 ^ 12) (by norm_num) (by norm_num)
  have g7 := (g3.neg).mono (A' := 1) (δ' := 984 / 10 ^ 14) (by norm_num) (by norm_num)
  have g8 := (g7.mul g6).mono (A' := 1) (δ' := 279 / 10 ^ 13) (by norm_num) (by norm_num)
  have g9 := (g8.mul g2).mono (A' := 1) (δ' := 322 / 10 ^ 11) (by norm_num) (by norm_num)
  have g10 := (g4.mul g1).mono (A' := 1) (δ' := 32 / 10 ^ 10) (by norm_num) (by norm_num)
  have g11 := (g9.sub g10).mono (A' := 2) (δ' := 643 / 10 ^ 11) (by norm_num) (by norm_num)
  have g12 := g11.bound (A' := 1) (unitV_le (argLat r τ) (nodeS r τ) (inclS r τ)).1
  exact g12

theorem t_unitVy (hL : Libm.Faithful) (h : Mid s t r τ) : Q (unitV (argLat s t) (nodeS s t) (inclS s t)).y (unitV (argLat r τ) (nodeS r τ) (inclS r τ)).y (1) (643 / 10 ^ 11) := by
  have g1 := ((t_argLat hL h).sin hL).mono (A' := 1) (δ' := 319 / 10 ^ 11) (by norm_num) (by norm_num)
  have g2 := ((t_argLat hL h).cos hL).mono (A' := 1) (δ' := 319 / 10 ^ 11) (by norm_num) (by norm_num)
  have g3 := ((t_nodeS hL h).sin hL).mono (A' := 1) (δ' := 984 / 10 ^ 14) (by norm_num) (by norm_num)
  have g4 := ((t_nodeS hL h).cos hL).mono (A' := 1) (δ' := 984 / 10 ^ 14) (by norm_num) (by norm_num)
  have g5 := ((t_inclS hL h).sin hL).mono (A' := 1) (δ' := 18 / 10 ^ 12) (by norm_num) (by norm_num)
  have g6 := ((t_inclS hL h).cos hL).mono (A' := 1) (δ' := 18 / 10 ^ 12) (by norm_num) (by norm_num)
  have g7 := (g4.mul g6).mono (A' := 1) (δ' := 279 / 10 ^ 13) (by norm_num) (by norm_num)
  have g8 := (g7.mul g2).mono (A' := 1) (δ' := 322 / 10 ^ 11) (by norm_num) (by norm_num)
  have g9 := (g3.mul g1).mono (A' := 1) (δ' := 32 / 10 ^ 10) (by norm_num) (by norm_num)
  have g10 := (g8.sub g9).mono (A' := 2) (δ' := 643 / 10 ^ 11) (by norm_num) (by norm_num)
  have g11 := g10.bound (A' := 1) (unitV_le (argLat r τ) (nodeS r τ) (inclS r τ)).2.1
  exact g11

theorem t_unitVz (hL : Libm.Faithful) (h : Mid s t r τ) : Q (unitV (argLat s t) (nodeS s t) (inclS s t)).z (unitV (argLat r τ) (nodeS r τ) (inclS r τ)).z (1) (321 / 10 ^ 11) := by
  have g1 := ((t_argLat hL h).sin hL).mono (A' := 1) (δ' := 319 / 10 ^ 11) (by norm_num) (by norm_num)
  have g2 := ((t_argLat hL h).cos hL).mono (A' := 1) (δ' := 319 / 10 ^ 11) (by norm_num) (by norm_num)
  have g3 := ((t_nodeS hL h).sin hL).mono (A' := 1) (δ' := 984 / 10 ^ 14) (by norm_num) (by norm_num)
  have g4 := ((t_nodeS hL h).cos hL).mono (A' := 1) (δ' := 984 / 10 ^ 14) (by norm_num) (by norm_num)
  have g5 := ((t_inclS hL h).sin hL).mono (A' := 1) (δ' := 18 / 10 ^ 12) (by norm_num) (by norm_num)
  have g6 := ((t_inclS hL h).cos hL).mono (A' := 1) (δ' := 18 / 10 ^ 12) (by norm_num) (by norm_num)
  have g7 := (g5.mul g2).mono (A' := 1) (δ' := 321 / 10 ^ 11) (by norm_num) (by norm_num)
  have g8 := g7.bound (A' := 1) (unitV_le (argLat r τ) (nodeS r τ) (inclS r τ)).2.2
  exact g8

theorem t_posx (hL : Libm.Faithful) (h : Mid s t r τ) : Q (position s t).x (position r τ).x (99600) (651 / 10 ^ 6) := by
  have g1 := ((t_radius hL h).mul (t_unitUx hL h)).mono (A' := 156 / 10 ^ 1) (δ' := 102 / 10 ^ 9) (by norm_num) (by norm_num)
  have g2 := (g1.mul q_ER).mono (A' := 99600) (δ' := 651 / 10 ^ 6) (by norm_num) (by norm_num)
  exact g2

theorem t_posy (hL : Libm.Faithful) (h : Mid s t r τ) : Q (position s t).y (position r τ).y (99600) (651 / 10 ^ 6) := by
  have g1 := ((t_radius hL h).mul (t_unitUy hL h)).mono (A' := 156 / 10 ^ 1) (δ' := 102 / 10 ^ 9) (by norm_num) (by norm_num)
  have g2 := (g1.mul q_ER).mono (A' := 99600) (δ' := 651 / 10 ^ 6) (by norm_num) (by norm_num)
  exact g2

theorem t_posz (hL : Libm.Faithful) (h : Mid s t r τ) : Q (position s t).z (position r τ).z (99600) (327 / 10 ^ 6) := by
  have g1 := ((t_radius hL h).mul (t_unitUz hL h)).mono (A' := 156 / 10 ^ 1) (δ' := 512 / 10 ^ 10) (by norm_num) (by norm_num)
  have g2 := (g1.mul q_ER).mono (A' := 99600) (δ' := 327 / 10 ^ 6) (by norm_num) (by norm_num)
  exact g2

theorem t_vunit : Q ((EARTH_RADIUS * XKE) / 60.0 : F64) ((EARTH_RADIUS * XKE) / 60.0 : ℝ) (792 / 10 ^ 2) (353 / 10 ^ 17) := by
  have g1 := (Q.int 600 true 1 60 (by norm_num)).mono (A' := 60) (δ' := 0) (by norm_num) le_rfl
  have g2 := (q_ER.mul q_XKE).mono (A' := 475) (δ' := 159 / 10 ^ 15) (by norm_num) (by norm_num)
  have g3 := (g2.div g1 (60) (792 / 10 ^ 2) (by norm_num) (quot_le (m := 60) g2.mag (by norm_num) (by norm_num) (by norm_num))).mono (A' := 792 / 10 ^ 2) (δ' := 353 / 10 ^ 17) (by norm_num) (by norm_num)
  exact g3

theorem t_velx (hL : Libm.Faithful) (h : Mid s t r τ) : Q (velocity s t).x (velocity r τ).x (919 / 10 ^ 1) (824 / 10 ^ 9) := by
  have g1 := ((t_rdot hL h).mul (t_unitUx hL h)).mono (A' := 36 / 10 ^ 1) (δ' := 326 / 10 ^ 10) (by norm_num) (by norm_num)
  have g2 := ((t_rfdot hL h).mul (t_unitVx hL h)).mono (A' := 795 / 10 ^ 2) (δ' := 706 / 10 ^ 10) (by norm_num) (by norm_num)
  have g3 := (g1.add g2).mono (A' := 116 / 10 ^ 1) (δ' := 104 / 10 ^ 9) (by norm_num) (by norm_num)
  have g4 := (g3.mul t_vunit).mono (A' := 919 / 10 ^ 1) (δ' := 824 / 10 ^ 9) (by norm_num) (by norm_num)
  exact g4

theorem t_vely (hL : Libm.Faithful) (h : Mid s t r τ) : Q (velocity s t).y (velocity r τ).y (919 / 10 ^ 1) (824 / 10 ^ 9) := by
  have g1 := ((t_rdot hL h).mul (t_unitUy hL h)).mono (A' := 36 / 10 ^ 1) (δ' := 326 / 10 ^ 10) (by norm_num) (by norm_num)
  have g2 := ((t_rfdot hL h).mul (t_unitVy hL h)).mono (A' := 795 / 10 ^ 2) (δ' := 706 / 10 ^ 10) (by norm_num) (by norm_num)
  have g3 := (g1.add g2).mono (A' := 116 / 10 ^ 1) (δ' := 104 / 10 ^ 9) (by norm_num) (by norm_num)
  have g4 := (g3.mul t_vunit).mono (A' := 919 / 10 ^ 1) (δ' := 824 / 10 ^ 9) (by norm_num) (by norm_num)
  exact g4

theorem t_velz (hL : Libm.Faithful) (h : Mid s t r τ) : Q (velocity s t).z (velocity r τ).z (919 / 10 ^ 1) (524 / 10 ^ 9) := by
  have g1 := ((t_rdot hL h).mul (t_unitUz hL h)).mono (A' := 36 / 10 ^ 1) (δ' := 21 / 10 ^ 9) (by norm_num) (by norm_num)
  have g2 := ((t_rfdot hL h).mul (t_unitVz hL h)).mono (A' := 795 / 10 ^ 2) (δ' := 45 / 10 ^ 9) (by norm_num) (by norm_num)
  have g3 := (g1.add g2).mono (A' := 116 / 10 ^ 1) (δ' := 661 / 10 ^ 10) (by norm_num) (by norm_num)
  have g4 := (g3.mul t_vunit).mono (A' := 919 / 10 ^ 1) (δ' := 524 / 10 ^ 9) (by norm_num) (by norm_num)
  exact g4

end
end Sat
