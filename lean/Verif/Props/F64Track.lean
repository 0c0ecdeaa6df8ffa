import Verif.Props.F64Sight
/-!
# C91: the ground track in doubles

`eci_to_geodedic` in doubles, for a satellite whose position is known up to `δ`: longitude, latitude and height against the geodetic coordinates of the
exact position.  The missing square root of C40 costs up to 152 m in latitude and 21.6 km in height; everything else (rounding, the twenty iterations, the
error of the position and of the sidereal time) is a few times `δ`.
-/

namespace Sat
open F64 hiding sub
open Spec Spec.R3 Chain

/-- `g` is the place with geodetic coordinates `G` at the point `O` (earth-fixed, kilometres) as `eci_to_geodedic` reports it, up to `δ` km: latitude
within 152 m (times its cosine) plus `3.8 δ` as seen from the centre of the earth; longitude up to a whole turn within `5 δ / m` for points `m` km off the
axis; height too low by `heightError`, within 155 m plus `3.8 δ`, for points a kilometre or more off the axis. -/
def Tracks (g : Geodedic F64) (G : Geodedic ℝ) (O : Vec3 ℝ) (δ : ℝ) : Prop :=
  g.latitude.Fin ∧ |g.latitude.val| ≤ Real.pi / 2 ∧ |g.latitude.val - G.latitude| * len O ≤ 0.152 * Real.cos G.latitude + 3.8 * δ ∧
  g.longitude.Fin ∧ |g.longitude.val| ≤ Real.pi ∧
  (∀ m, 20 * δ ≤ m → m ^ 2 ≤ O.x ^ 2 + O.y ^ 2 → ∃ k : ℤ, |g.longitude.val - (G.longitude + k * (2 * Real.pi))| ≤ 5 * δ / m) ∧
  (1 ≤ O.x ^ 2 + O.y ^ 2 → Close g.height (G.height - heightError G.latitude) (0.155 + 3.8 * δ))

variable [Libm]

/-- the distance from the axis -/
theorem hypot_near {x y : F64} (hx : Within x 100000) (hy : Within y 100000) :
    (Arith.sqrt (x * x + y * y)).Fin ∧ |(Arith.sqrt (x * x + y * y)).val - Real.sqrt (x.val ^ 2 + y.val ^ 2)| ≤ 1 / 10 ^ 8 := by
  have bx : |x.val| ≤ 2 ^ 20 := hx.2.trans (by norm_num)
  have by' : |y.val| ≤ 2 ^ 20 := hy.2.trans (by norm_num)
  obtain ⟨ha, ha0, h1⟩ := sq_near hx.1 bx
  obtain ⟨hb, hb0, h2⟩ := sq_near hy.1 by'
  have sq : ∀ {w : ℝ}, |w| ≤ 100000 → w ^ 2 ≤ 10 ^ 10 := fun {w} hw => by
    have := sq_le_sq' (by linarith [(abs_le.mp hw).1]) (abs_le.mp hw).2
    refine this.trans (by norm_num)
  have hx2 := sq hx.2
  have hy2 := sq hy.2
  have x0 := sq_nonneg x.val
  have y0 := sq_nonneg y.val
  show (F64.sqrt (F64.add (x * x) (y * y))).Fin ∧ |(F64.sqrt (F64.add (x * x) (y * y))).val - _| ≤ _
  generalize x * x = a at *
  generalize y * y = b at *
  generalize x.val ^ 2 = X at *
  generalize y.val ^ 2 = Y at *
  have h1' := abs_le.mp h1
  have h2' := abs_le.mp h2
  have r1 := add_rounds ha hb
  have n1 := nonNeg_of_rounds r1 (add_nonneg ha0 hb0)
  obtain ⟨f1, g1⟩ := r1.near (B := a.val + b.val) (by rw [abs_of_nonneg (add_nonneg ha0 hb0)]) (by first | linarith | (norm_num at *; linarith))
  have n1' : 0 ≤ (F64.add a b).val := by
    rcases n1 with h | h
    · rw [h] at f1; exact absurd f1 (not_fin_inf _)
    · exact h.2
  have g1' := abs_le.mp g1
  have key : |(F64.add a b).val - (X + Y)| ≤ 1 / 2 ^ 46 * (X + Y) + (1 / 2 ^ 73) ^ 2 := by
    rw [abs_le]
    constructor <;> norm_num at * <;> linarith [g1'.1, g1'.2, h1'.1, h1'.2, h2'.1, h2'.2]
  have hS : 0 ≤ X + Y := by linarith
  have s1 := sqrt_near n1' hS (by norm_num) (by norm_num) key
  have hR : Real.sqrt (X + Y) ≤ 150000 := Real.sqrt_le_iff.mpr ⟨by norm_num, by first | linarith | (norm_num at *; linarith)⟩
  have hR0 := Real.sqrt_nonneg (X + Y)
  have hs0 := Real.sqrt_nonneg (F64.add a b).val
  have s1' := abs_le.mp s1
  obtain ⟨f3, g3⟩ := (sqrt_rounds f1 n1').near (B := Real.sqrt (F64.add a b).val) (by rw [abs_of_nonneg hs0]) (by norm_num at *; linarith [s1'.2])
  refine ⟨f3, ?_⟩
  have g3' := abs_le.mp g3
  generalize (F64.sqrt (F64.add a b)).val = w at *
  generalize Real.sqrt (F64.add a b).val = w' at *
  generalize Real.sqrt (X + Y) = w'' at *
  rw [abs_le]
  constructor <;> norm_num at s1' g3' hR ⊢ <;> linarith [s1'.1, s1'.2, g3'.1, g3'.2]

/-- the arctangent in the right half plane -/
theorem atan2_right (hL : Libm.Faithful) {y r : F64} (hy : y.Fin) (hr : r.Fin) (hr0 : 0 < r.val ∨ r = zero false) (h : y.val ≠ 0 ∨ r.val ≠ 0) :
    (Libm.atan2 y r).Fin ∧ |(Libm.atan2 y r).val| ≤ F64.fracPi2.val ∧ |(Libm.atan2 y r).val - atan2R y.val r.val| ≤ 1 / 2 ^ 48 := by
  have a := hL.atan2_half y r hy hr hr0
  obtain ⟨k, hk⟩ := hL.atan2_acc y r hy hr h
  refine ⟨(hL.atan2_fin y r hy hr).1, a, ?_⟩
  have hr' : 0 ≤ r.val := by
    rcases hr0 with h | h
    · exact h.le
    · rw [h, zero_val]
  have hm := atan2R_half (y := y.val) hr'
  have hf : F64.fracPi2.val ≤ 1.6 := by rw [fracPi2_val.2]; norm_num
  have hk0 : k = 0 := by
    have h1 := abs_le.mp hk
    have h2 := abs_le.mp a
    have hp := Real.pi_gt_three
    have hp' := Real.pi_lt_d2
    by_contra hne
    rcases lt_or_gt_of_ne hne with h | h
    · have : (k : ℝ) ≤ -1 := by exact_mod_cast (by omega : k ≤ -1)
      have : (k : ℝ) * (2 * Real.pi) ≤ -1 * (2 * Real.pi) := by gcongr
      have : (1 : ℝ) / 2 ^ 48 ≤ 0.1 := by norm_num
      linarith [h1.1, h1.2, h2.1, h2.2, hm.1, hm.2]
    · have : (1 : ℝ) ≤ k := by exact_mod_cast (by omega : 1 ≤ k)
      have : 1 * (2 * Real.pi) ≤ (k : ℝ) * (2 * Real.pi) := by gcongr
      have : (1 : ℝ) / 2 ^ 48 ≤ 0.1 := by norm_num
      linarith [h1.1, h1.2, h2.1, h2.2, hm.1, hm.2]
  rw [hk0] at hk
  simpa using hk

/-- the quotient `c` of one iteration -/
theorem u_c (hL : Libm.Faithful) {x : F64} (hx : x.Fin) :
    Q (1.0 / (1.0 - (ellE2 * powi2 (Arith.sin x))) : F64) (1.0 / (1.0 - ellE2 * powi2 (Real.sin x.val)) : ℝ) (102 / 10 ^ 2) (8 / 10 ^ 16) := by
  obtain ⟨w1, w2, -, -⟩ := w_bounds x.val
  have s := q_sin hL hx
  have o := (Q.int 10 true 1 1 (by norm_num)).mono (A' := 1) (δ' := 0) (by norm_num) le_rfl
  have e : (OfScientific.ofScientific 10 true 1 - ellE2 * powi2 (Real.sin x.val) : ℝ) = 1 - ellE2 * Real.sin x.val ^ 2 := by
    rw [real_powi2]; norm_num
  have g1 : Q (powi2 (Arith.sin x) : F64) (powi2 (Real.sin x.val)) 1 (73 / 10 ^ 16) := (s.mul s).mono (by norm_num) (by norm_num)
  have g2 := (q_ellE2.mul g1).mono (A' := 674 / 10 ^ 5) (δ' := 51 / 10 ^ 17) (by norm_num) (by norm_num)
  have g3 := (o.sub' g2 1 (by rw [e, abs_le]; constructor <;> linarith)).mono (A' := 1) (δ' := 63 / 10 ^ 17) (by norm_num) (by norm_num)
  have hm : (99 / 10 ^ 2 : ℝ) ≤ |(OfScientific.ofScientific 10 true 1 - ellE2 * powi2 (Real.sin x.val) : ℝ)| := by
    rw [e, abs_of_pos (by linarith)]; linarith
  exact (o.div g3 (99 / 10 ^ 2) (102 / 10 ^ 2) hm (quot_le o.mag hm (by norm_num) (by norm_num))).mono (by norm_num) (by norm_num)

/-- the numerator of one iteration -/
theorem u_tip (hL : Libm.Faithful) {z x : F64} (hz : Within z 100000) (hx : x.Fin) :
    Q (z + (ellA * (1.0 / (1.0 - (ellE2 * powi2 (Arith.sin x)))) * ellE2 * Arith.sin x) : F64)
      (z.val + ellA * (1.0 / (1.0 - ellE2 * powi2 (Real.sin x.val))) * ellE2 * Real.sin x.val : ℝ) 100044 (15 / 10 ^ 12) := by
  have a : Q (ellA : F64) (ellA : ℝ) 6380 (709 / 10 ^ 15) := (Q.sci 6378137 true 3 (6380) (by norm_num)).mono (by norm_num) (by norm_num)
  have g5 := (a.mul (u_c hL hx)).mono (A' := 6508) (δ' := 7 / 10 ^ 12) (by norm_num) (by norm_num)
  have g6 := (g5.mul q_ellE2).mono (A' := 44) (δ' := 31 / 10 ^ 13) (by norm_num) (by norm_num)
  have g7 := (g6.mul (q_sin hL hx)).mono (A' := 44) (δ' := 33 / 10 ^ 13) (by norm_num) (by norm_num)
  exact (hz.q.add g7).mono (by norm_num) (by norm_num)

/-- one iteration, at a point whose distance from the axis and height above the equator are known up to `ε` -/
theorem latStep_near (hL : Libm.Faithful) {z r : F64} (hz : Within z 100000) (hr : r.Fin) (hr0 : 0 < r.val ∨ r = zero false) {φ R ε b : ℝ}
    (hφ : |φ| ≤ Real.pi / 2) (hR : 6278 ≤ R) (hzt : |z.val - (R * Real.sin φ - ellE2 * primeVertical φ * Real.sin φ)| ≤ ε)
    (hrt : |r.val - R * Real.cos φ| ≤ ε) (hε : ε ≤ 1 / 10) {st : F64 × F64} (hst : st.1.Fin) (hb : |st.1.val - φ| ≤ b) (hb7 : b ≤ 0.007) :
    (latStep z r st).1.Fin ∧ |(latStep z r st).1.val| ≤ F64.fracPi2.val ∧
    |(latStep z r st).1.val - φ| ≤ ((43.7 * b + 0.145 + ε + 1 / 10 ^ 10) * Real.cos φ + ε) / (R - (43.7 * b + 0.145 + ε + 1 / 10 ^ 10) - ε) + 1 / 2 ^ 48 ∧
    Q (latStep z r st).2 (1 / (1 - ellE2 * Real.sin st.1.val ^ 2)) (102 / 10 ^ 2) (8 / 10 ^ 16) ∧
    ∃ y : ℝ, |y - R * Real.sin φ| ≤ 43.7 * b + 0.145 + ε + 1 / 10 ^ 10 ∧ |(latStep z r st).1.val - atan2R y r.val| ≤ 1 / 2 ^ 48 := by
  have hε0 : 0 ≤ ε := (abs_nonneg _).trans hrt
  have hb0 : 0 ≤ b := (abs_nonneg _).trans hb
  have qc := u_c hL hst
  have qy := u_tip hL hz hst
  have hr' : 0 ≤ r.val := by
    rcases hr0 with h | h
    · exact h.le
    · rw [h, zero_val]
  have e1 : (1.0 / (1.0 - ellE2 * powi2 (Real.sin st.1.val)) : ℝ) = 1 / (1 - ellE2 * Real.sin st.1.val ^ 2) := by
    rw [real_powi2]; norm_num
  have e2 : latStep z r st = (Libm.atan2 (z + (ellA * (1.0 / (1.0 - (ellE2 * powi2 (Arith.sin st.1)))) * ellE2 * Arith.sin st.1)) r,
      1.0 / (1.0 - (ellE2 * powi2 (Arith.sin st.1)))) := rfl
  rw [e1] at qc qy
  rw [e2]
  dsimp only
  generalize (1.0 / (1.0 - (ellE2 * powi2 (Arith.sin st.1))) : F64) = c at *
  generalize (z + (ellA * c * ellE2 * Arith.sin st.1) : F64) = y at *
  have hA : (ellA : ℝ) = equatorial := rfl
  rw [hA] at qy
  have ht := tip_error st.1.val φ
  have hyt : |y.val - R * Real.sin φ| ≤ 43.7 * b + 0.145 + ε + 1 / 10 ^ 10 := by
    have e : y.val - R * Real.sin φ = (y.val - (z.val + equatorial * (1 / (1 - ellE2 * Real.sin st.1.val ^ 2)) * ellE2 * Real.sin st.1.val)) +
        ((z.val - (R * Real.sin φ - ellE2 * primeVertical φ * Real.sin φ)) +
          (equatorial * (1 / (1 - ellE2 * Real.sin st.1.val ^ 2)) * ellE2 * Real.sin st.1.val - ellE2 * primeVertical φ * Real.sin φ)) := by ring
    rw [e]
    refine (abs_add_bd qy.err (abs_add_bd hzt ht)).trans ?_
    have : 43.7 * |st.1.val - φ| ≤ 43.7 * b := by gcongr
    first | linarith | (norm_num at *; linarith)
  have hsum : (43.7 * b + 0.145 + ε + 1 / 10 ^ 10) + ε < R := by first | linarith | (norm_num at *; linarith)
  obtain ⟨m1, m2⟩ := tip_moved2 hφ hyt hrt hr' hsum
  have hne : y.val ≠ 0 ∨ r.val ≠ 0 := by
    by_contra hcon
    push Not at hcon
    rw [hcon.1, hcon.2] at m2
    simp only [ne_eq, OfNat.ofNat_ne_zero, not_false_eq_true, zero_pow, add_zero, Real.sqrt_zero, zero_sub, abs_neg] at m2
    rw [abs_of_pos (by linarith)] at m2
    linarith
  obtain ⟨a1, a2, a3⟩ := atan2_right hL qy.fin hr hr0 hne
  refine ⟨a1, a2, ?_, qc, y.val, hyt, a3⟩
  have e : (Libm.atan2 y r).val - φ = (atan2R y.val r.val - φ) + ((Libm.atan2 y r).val - atan2R y.val r.val) := by ring
  rw [e]
  exact abs_add_bd m1 a3

omit [Libm] in
theorem latLoop_last {F : Type} [Arith F] (z r : F) (n : ℕ) (st : F × F) : latLoop z r (n + 1) st = latStep z r (latLoop z r n st) := by
  induction n generalizing st with
  | zero => rfl
  | succ n ih => rw [latLoop, ih]; rfl

/-- the twenty iterations -/
theorem latLoop_near (hL : Libm.Faithful) {z r : F64} (hz : Within z 100000) (hr : r.Fin) (hr0 : 0 < r.val ∨ r = zero false) {φ R ε : ℝ}
    (hφ : |φ| ≤ Real.pi / 2) (hR : 6278 ≤ R) (hR2 : R ≤ 260000) (hzt : |z.val - (R * Real.sin φ - ellE2 * primeVertical φ * Real.sin φ)| ≤ ε)
    (hrt : |r.val - R * Real.cos φ| ≤ ε) (hε : ε ≤ 1 / 10) {st : F64 × F64} (hst : st.1.Fin) (hb : |st.1.val - φ| ≤ 0.007) :
    (latLoop z r 20 st).1.Fin ∧ |(latLoop z r 20 st).1.val| ≤ F64.fracPi2.val ∧
    |(latLoop z r 20 st).1.val - φ| * R ≤ 0.15 * Real.cos φ + 2.001 * ε + 2 / 10 ^ 9 ∧
    (∃ x : ℝ, |x - φ| ≤ 0.000024 + 0.00032 * ε ∧ Q (latLoop z r 20 st).2 (1 / (1 - ellE2 * Real.sin x ^ 2)) (102 / 10 ^ 2) (8 / 10 ^ 16)) ∧
    ∃ y : ℝ, |y - R * Real.sin φ| ≤ 0.1462 + 1.015 * ε ∧ |(latLoop z r 20 st).1.val - atan2R y r.val| ≤ 1 / 2 ^ 48 := by
  have hφ' := abs_le.mp hφ
  have hc : 0 ≤ Real.cos φ := Real.cos_nonneg_of_mem_Icc ⟨hφ'.1, hφ'.2⟩
  have hc1 := Real.cos_le_one φ
  have hε0 : 0 ≤ ε := (abs_nonneg _).trans hrt
  have hεc : ε * Real.cos φ ≤ ε := mul_le_of_le_one_right hε0 hc1
  have hεc0 : 0 ≤ ε * Real.cos φ := mul_nonneg hε0 hc
  have step := fun (n : ℕ) (b : ℝ) (hf : (latLoop z r n st).1.Fin) (h : |(latLoop z r n st).1.val - φ| ≤ b) (h7 : b ≤ 0.007) =>
    latStep_near hL hz hr hr0 hφ hR hzt hrt hε hf h h7
  have s1 : ∀ n, (latLoop z r (n + 1) st).1.Fin ∧ |(latLoop z r (n + 1) st).1.val - φ| ≤ 0.00011 := by
    intro n
    induction n with
    | zero =>
      obtain ⟨a1, -, a3, -⟩ := step 0 0.007 hst hb le_rfl
      rw [← latLoop_last] at a1 a3
      refine ⟨a1, a3.trans ?_⟩
      rw [← le_sub_iff_add_le, div_le_iff₀ (by first | linarith | (norm_num at *; linarith))]
      have : (43.7 * 0.007 + 0.145 + ε + 1 / 10 ^ 10) * Real.cos φ ≤ 43.7 * 0.007 + 0.145 + ε + 1 / 10 ^ 10 := mul_le_of_le_one_right (by positivity) hc1
      first | linarith | (norm_num at *; linarith)
    | succ n ih =>
      obtain ⟨a1, -, a3, -⟩ := step (n + 1) 0.00011 ih.1 ih.2 (by norm_num)
      rw [← latLoop_last] at a1 a3
      refine ⟨a1, a3.trans ?_⟩
      rw [← le_sub_iff_add_le, div_le_iff₀ (by first | linarith | (norm_num at *; linarith))]
      have : (43.7 * 0.00011 + 0.145 + ε + 1 / 10 ^ 10) * Real.cos φ ≤ 43.7 * 0.00011 + 0.145 + ε + 1 / 10 ^ 10 := mul_le_of_le_one_right (by positivity) hc1
      first | linarith | (norm_num at *; linarith)
  have s2 : ∀ n, |(latLoop z r (n + 2) st).1.val - φ| * R ≤ 0.15 * Real.cos φ + 2.001 * ε + 2 / 10 ^ 9 := by
    intro n
    obtain ⟨-, -, a3, -⟩ := step (n + 1) 0.00011 (s1 n).1 (s1 n).2 (by norm_num)
    rw [← latLoop_last] at a3
    refine (mul_le_mul_of_nonneg_right a3 (by linarith)).trans ?_
    set N := (43.7 * 0.00011 + 0.145 + ε + 1 / 10 ^ 10) * Real.cos φ + ε with hN
    have hN' : N = 0.149807 * Real.cos φ + ε * Real.cos φ + ε + 1 / 10 ^ 10 * Real.cos φ := by rw [hN]; ring
    have hN0 : 0 ≤ N := by rw [hN']; positivity
    have hq : N / (R - (43.7 * 0.00011 + 0.145 + ε + 1 / 10 ^ 10) - ε) * R ≤ 1.00006 * N := by
      rw [div_mul_eq_mul_div, div_le_iff₀ (by first | linarith | (norm_num at *; linarith))]
      have h2 : R ≤ 1.00006 * (R - (43.7 * 0.00011 + 0.145 + ε + 1 / 10 ^ 10) - ε) := by first | linarith | (norm_num at *; linarith)
      calc N * R ≤ N * (1.00006 * (R - (43.7 * 0.00011 + 0.145 + ε + 1 / 10 ^ 10) - ε)) := by gcongr
        _ = _ := by ring
    rw [add_mul]
    have h3 : 1 / 2 ^ 48 * R ≤ 1 / 10 ^ 9 := by first | linarith | (norm_num at *; linarith)
    refine (add_le_add hq h3).trans ?_
    rw [hN']
    first | linarith | (norm_num at *; linarith)
  have f19 := (s1 18).1
  have d19 : |(latLoop z r 19 st).1.val - φ| ≤ 0.000024 + 0.00032 * ε := by
    have h := s2 17
    have h1 : |(latLoop z r 19 st).1.val - φ| * 6278 ≤ |(latLoop z r 19 st).1.val - φ| * R := by gcongr
    first | linarith | (norm_num at *; linarith)
  obtain ⟨a1, a2, -, a4, y, a5, a6⟩ := step 19 _ f19 d19 (by first | linarith | (norm_num at *; linarith))
  rw [← latLoop_last] at a1 a2 a4 a6
  refine ⟨a1, a2, s2 18, ⟨_, d19, a4⟩, y, a5.trans ?_, a6⟩
  first | linarith | (norm_num at *; linarith)

/-- the distance from the axis along the normal, recovered from the latitude -/
theorem normal_near (hL : Libm.Faithful) {r lat : F64} (hr : r.Fin) (hr0 : 0 ≤ r.val) (hl : lat.Fin) {φ R ε y Δ : ℝ} (hφ : |φ| ≤ Real.pi / 2) (hR : 6278 ≤ R)
    (hR2 : R ≤ 260000) (hrt : |r.val - R * Real.cos φ| ≤ ε) (hε : ε ≤ 1 / 10) (hy : |y - R * Real.sin φ| ≤ Δ) (hΔ : Δ ≤ 1 / 2)
    (hlat : |lat.val - atan2R y r.val| ≤ 1 / 2 ^ 48) (hD : 1 ≤ R * Real.cos φ) :
    Q (r / Arith.cos lat) R 260000 (Δ + ε + 6 / 10 ^ 4) := by
  have hε0 : 0 ≤ ε := (abs_nonneg _).trans hrt
  obtain ⟨-, m2⟩ := tip_moved2 hφ hy hrt hr0 (by linarith)
  have a1 := atan2R_cos y r.val
  set ψ := atan2R y r.val with hψ
  set ρ := Real.sqrt (r.val ^ 2 + y ^ 2) with hρ
  obtain ⟨m3, m4⟩ := abs_le.mp m2
  obtain ⟨t1, t2⟩ := abs_le.mp hrt
  obtain ⟨c1, c2, c3⟩ := hL.cos_fin lat hl
  have hρ0 : 0 < ρ := by linarith
  have hC : |(Libm.cos lat).val - Real.cos ψ| ≤ 1 / 2 ^ 47 := by
    have e : (Libm.cos lat).val - Real.cos ψ = ((Libm.cos lat).val - Real.cos lat.val) + (Real.cos lat.val - Real.cos ψ) := by ring
    rw [e]
    refine (abs_add_bd c3 ((cos_lip _ _).trans hlat)).trans (by norm_num)
  set C := (Libm.cos lat).val with hCd
  obtain ⟨k1, k2⟩ := abs_le.mp hC
  have hcψ : 0.0000034 ≤ Real.cos ψ := by
    have : Real.cos ψ = r.val / ρ := by rw [eq_div_iff hρ0.ne', mul_comm]; exact a1
    rw [this, le_div_iff₀ hρ0]
    have h1 : (0.0000034 : ℝ) * ρ ≤ 0.0000034 * 260001 := by gcongr; linarith
    have h2 : (0.0000034 : ℝ) * 260001 ≤ 0.9 := by norm_num
    have h3 : 0.9 ≤ r.val := by first | linarith | (norm_num at *; linarith)
    linarith
  have hC0 : 0.00000339 ≤ C := by first | linarith | (norm_num at *; linarith)
  have hCp : 0 < C := lt_of_lt_of_le (by norm_num) hC0
  have hq : |r.val / C - ρ| ≤ 5.8 / 10 ^ 4 := by
    have e : r.val / C - ρ = ρ * (Real.cos ψ - C) / C := by
      rw [← a1]; field_simp
    rw [e, abs_div, abs_mul, abs_of_pos hρ0, abs_of_pos hCp, div_le_iff₀ hCp, abs_sub_comm]
    calc ρ * |C - Real.cos ψ| ≤ 260001 * (1 / 2 ^ 47) := by
          have : ρ ≤ 260001 := by linarith
          gcongr
      _ ≤ 5.8 / 10 ^ 4 * 0.00000339 := by norm_num
      _ ≤ _ := by gcongr
  obtain ⟨q1, q2⟩ := abs_le.mp hq
  have rd := div_rounds hr c1 hCp.ne'
  have hb : |r.val / C| ≤ 260002 := by rw [abs_le]; constructor <;> first | linarith | (norm_num at *; linarith)
  obtain ⟨f, e⟩ := rd.near (B := 260002) hb (by norm_num)
  refine ⟨f, ?_, by rw [abs_of_pos (by linarith)]; exact hR2⟩
  show |(F64.div r (Libm.cos lat)).val - R| ≤ _
  have e' : (F64.div r (Libm.cos lat)).val - R = ((F64.div r (Libm.cos lat)).val - r.val / C) + ((r.val / C - ρ) + (ρ - R)) := by ring
  rw [e']
  refine (abs_add_bd e (abs_add_bd hq m2)).trans ?_
  first | linarith | (norm_num at *; linarith)

omit [Libm] in
theorem quotient_near {x φ d : ℝ} (h : |x - φ| ≤ d) :
    |equatorial * (1 / (1 - ellE2 * Real.sin x ^ 2)) - equatorial * (1 / (1 - ellE2 * Real.sin φ ^ 2))| ≤ 86.7 * d := by
  obtain ⟨y1, y2, -, -⟩ := w_bounds x
  obtain ⟨w1, w2, -, -⟩ := w_bounds φ
  have e0 := ellE2_pos
  have e1 := ellE2_le
  have hd0 : 0 ≤ d := (abs_nonneg _).trans h
  have hw1 : 1 - ellE2 * Real.sin x ^ 2 ≠ 0 := by linarith
  have hw2 : 1 - ellE2 * Real.sin φ ^ 2 ≠ 0 := by linarith
  have hsd : |Real.sin x - Real.sin φ| ≤ d := (sin_lipschitz x φ).trans h
  have hss : |Real.sin x + Real.sin φ| ≤ 2 :=
    (abs_add_le _ _).trans (by linarith [Real.abs_sin_le_one x, Real.abs_sin_le_one φ])
  have : equatorial * (1 / (1 - ellE2 * Real.sin x ^ 2)) - equatorial * (1 / (1 - ellE2 * Real.sin φ ^ 2)) =
      equatorial * ellE2 * ((Real.sin x - Real.sin φ) * (Real.sin x + Real.sin φ)) / ((1 - ellE2 * Real.sin x ^ 2) * (1 - ellE2 * Real.sin φ ^ 2)) := by
    field_simp; ring
  have hp : 0.98664 ≤ (1 - ellE2 * Real.sin x ^ 2) * (1 - ellE2 * Real.sin φ ^ 2) := by nlinarith
  rw [this, abs_div, abs_of_pos (show 0 < (1 - ellE2 * Real.sin x ^ 2) * (1 - ellE2 * Real.sin φ ^ 2) by linarith), div_le_iff₀ (by linarith),
    abs_mul (equatorial * ellE2), abs_mul (Real.sin x - Real.sin φ), abs_of_pos (mul_pos (show 0 < equatorial by rw [equatorial]; norm_num) e0)]
  have h4 : equatorial * ellE2 * (|Real.sin x - Real.sin φ| * |Real.sin x + Real.sin φ|) ≤ (6378.137 * 0.0067) * (d * 2) := by
    have h5 : equatorial * ellE2 ≤ 6378.137 * 0.0067 := by rw [equatorial]; linarith
    exact mul_le_mul h5 (mul_le_mul hsd hss (abs_nonneg _) (by positivity)) (by positivity) (by norm_num)
  have h6 : (6378.137 * 0.0067 : ℝ) * (d * 2) ≤ 86.7 * d * 0.98664 := by
    have : 0 ≤ d := hd0
    first | linarith | (norm_num at *; linarith)
  have h7 : 86.7 * d * 0.98664 ≤ 86.7 * d * ((1 - ellE2 * Real.sin x ^ 2) * (1 - ellE2 * Real.sin φ ^ 2)) := by gcongr
  linarith

set_option maxHeartbeats 1000000 in
/-- the geodetic coordinates of a satellite whose position is known up to `δ`, with a sidereal angle known up to `κ` -/
theorem track_near (hL : Libm.Faithful) {p : Vec3 F64} {θ : F64} (hp : p.Bounded) (hθ : θ.Fin) (hθb : |θ.val| ≤ 10) {G : Geodedic ℝ} {O : Vec3 ℝ}
    (hG : Stands G O) (hφ : |G.latitude| ≤ Real.pi / 2) (hh : -100 ≤ G.height) {θ' κ δ : ℝ} {k : ℤ} (hκ : |θ.val - (θ' + k * (2 * Real.pi))| ≤ κ)
    (hδ0 : 1 / 10 ^ 5 ≤ δ) (hδ : δ ≤ 5 / 10 ^ 2) (hκδ : κ * 260000 ≤ 0.9 * δ) (hc : p.Close (rotZ θ' O) δ) :
    ∃ g, eci_to_geodedic p θ = some g ∧ Tracks g G O δ := by
  have bd : ∀ {x : F64}, Within x 100000 → Bd x 450 := fun {x} h => ⟨h.1, h.2.trans (by
    have : (2 : ℝ) ^ 17 ≤ 2 ^ 450 := pow_le_pow_right₀ (by norm_num) (by norm_num)
    exact le_trans (by norm_num) this)⟩
  obtain ⟨hp1, hp2, hp3⟩ := hp
  obtain ⟨g, hg, o1, o2, o3, o4, o5⟩ := C41_f64 hL p θ (bd hp1) (bd hp2) (bd hp3) hθ (hθb.trans (by norm_num))
  refine ⟨g, hg, ?_⟩
  have hδp : 0 < δ := lt_of_lt_of_le (by norm_num) hδ0
  -- the geometry
  rw [stands_iff, geodedic_to_ecf_real] at hG
  set φ := G.latitude with hφd
  set R := primeVertical φ + G.height with hRd
  obtain ⟨n1, n2⟩ := primeVertical_bounds φ
  have hR : 6278 ≤ R := by first | linarith | (norm_num at *; linarith)
  have hφ' := abs_le.mp hφ
  have hcos : 0 ≤ Real.cos φ := Real.cos_nonneg_of_mem_Icc ⟨hφ'.1, hφ'.2⟩
  have hpyth := Real.sin_sq_add_cos_sq φ
  have ht := tip_bound φ
  have Ox : O.x = R * Real.cos φ * Real.cos G.longitude := by rw [hG]
  have Oy : O.y = R * Real.cos φ * Real.sin G.longitude := by rw [hG]
  have Oz : O.z = R * Real.sin φ - ellE2 * primeVertical φ * Real.sin φ := by rw [hG, hRd]; dsimp only; ring
  have hD0 : 0 ≤ R * Real.cos φ := mul_nonneg (by linarith) hcos
  have hO2 : O.x ^ 2 + O.y ^ 2 = (R * Real.cos φ) ^ 2 := by
    rw [Ox, Oy]; linear_combination (R * Real.cos φ) ^ 2 * Real.sin_sq_add_cos_sq G.longitude
  set X := rotZ θ' O with hX
  have hXx : X.x = R * Real.cos φ * Real.cos (G.longitude + θ') := by
    show O.x * Real.cos θ' - O.y * Real.sin θ' = _
    rw [Ox, Oy, Real.cos_add]; ring
  have hXy : X.y = R * Real.cos φ * Real.sin (G.longitude + θ') := by
    show O.x * Real.sin θ' + O.y * Real.cos θ' = _
    rw [Ox, Oy, Real.sin_add]; ring
  have hXz : X.z = O.z := rfl
  have hX2 : X.x ^ 2 + X.y ^ 2 = (R * Real.cos φ) ^ 2 := by
    rw [hXx, hXy]; linear_combination (R * Real.cos φ) ^ 2 * Real.sin_sq_add_cos_sq (G.longitude + θ')
  obtain ⟨c1, c2, c3⟩ := hc
  -- the distance from the axis
  obtain ⟨r1, r2⟩ := hypot_near hp1 hp2
  have hr0 := (axis_dist (bd hp1) (bd hp2)).2
  change 0 < (Arith.sqrt (p.x * p.x + p.y * p.y)).val ∨ Arith.sqrt (p.x * p.x + p.y * p.y) = zero false at hr0
  have hlen : ∀ {a b : ℝ}, len ⟨a, b, 0⟩ = Real.sqrt (a ^ 2 + b ^ 2) := by
    intro a b; unfold len dot; congr 1; ring
  have hrt : |(Arith.sqrt (p.x * p.x + p.y * p.y)).val - R * Real.cos φ| ≤ 1.74 * δ := by
    have e1 : Real.sqrt (X.x ^ 2 + X.y ^ 2) = R * Real.cos φ := by rw [hX2, Real.sqrt_sq hD0]
    have h1 := len_sub_len ⟨p.x.val, p.y.val, 0⟩ ⟨X.x, X.y, 0⟩
    rw [hlen, hlen, e1] at h1
    have h2 : len (sub ⟨p.x.val, p.y.val, 0⟩ ⟨X.x, X.y, 0⟩) ≤ 1.7321 * δ :=
      len_le hδp.le c1.2 c2.2 (by show |(0:ℝ) - 0| ≤ δ; rw [sub_zero, abs_zero]; exact hδp.le)
    have e : (Arith.sqrt (p.x * p.x + p.y * p.y)).val - R * Real.cos φ = ((Arith.sqrt (p.x * p.x + p.y * p.y)).val - Real.sqrt (p.x.val ^ 2 + p.y.val ^ 2)) +
        (Real.sqrt (p.x.val ^ 2 + p.y.val ^ 2) - R * Real.cos φ) := by ring
    rw [e]
    refine (abs_add_bd r2 (h1.trans h2)).trans ?_
    first | linarith | (norm_num at *; linarith)
  have hzt : |p.z.val - (R * Real.sin φ - ellE2 * primeVertical φ * Real.sin φ)| ≤ 1.74 * δ := by
    rw [← Oz]; exact (c3.2).trans (by linarith)
  have hr' : 0 ≤ (Arith.sqrt (p.x * p.x + p.y * p.y)).val := by
    rcases hr0 with h | h
    · exact h.le
    · rw [h, zero_val]
  have hrmax : (Arith.sqrt (p.x * p.x + p.y * p.y)).val ≤ 150000 := by
    have : Real.sqrt (p.x.val ^ 2 + p.y.val ^ 2) ≤ 149999 := by
      refine Real.sqrt_le_iff.mpr ⟨by norm_num, ?_⟩
      have := abs_le.mp hp1.2
      have := abs_le.mp hp2.2
      nlinarith
    have := (abs_le.mp r2).2
    first | linarith | (norm_num at *; linarith)
  have hR2 : R ≤ 260000 := by
    have hRs : |R * Real.sin φ| ≤ 100100 := by
      have e : R * Real.sin φ = (p.z.val - (p.z.val - (R * Real.sin φ - ellE2 * primeVertical φ * Real.sin φ))) + ellE2 * primeVertical φ * Real.sin φ := by ring
      rw [e]
      refine (abs_add_bd (abs_sub_bd hp3.2 hzt) ht).trans ?_
      first | linarith | (norm_num at *; linarith)
    have hRc : R * Real.cos φ ≤ 150001 := by
      have := (abs_le.mp hrt).1
      first | linarith | (norm_num at *; linarith)
    have h1 : |R * Real.sin φ| ^ 2 ≤ 100100 ^ 2 := by gcongr
    have h2 : (R * Real.cos φ) ^ 2 ≤ 150001 ^ 2 := by gcongr
    rw [sq_abs] at h1
    have h3 : R ^ 2 = (R * Real.sin φ) ^ 2 + (R * Real.cos φ) ^ 2 := by linear_combination (-R ^ 2) * hpyth
    have h4 : R ^ 2 ≤ 260000 ^ 2 := by rw [h3]; first | linarith | (norm_num at *; linarith)
    exact abs_le_of_sq_le_sq' h4 (by norm_num) |>.2
  have hlO : len O ≤ R + 42.9 := by
    refine abs_le_of_sq_le_sq' ?_ (by linarith) |>.2
    rw [len_sq, hO2, Oz]
    set t := ellE2 * primeVertical φ * Real.sin φ with htd
    obtain ⟨t1, t2⟩ := abs_le.mp ht
    have h1 : t ^ 2 ≤ 42.9 ^ 2 := sq_le_sq' t1 t2
    have h2 : |R * Real.sin φ * t| ≤ R * 42.9 := by
      rw [abs_mul, abs_mul, abs_of_nonneg (by linarith : 0 ≤ R)]
      have := Real.abs_sin_le_one φ
      calc _ ≤ (R * 1) * 42.9 := by gcongr
        _ = _ := by ring
    have h3 := (abs_le.mp h2).1
    have e : (R * Real.cos φ) ^ 2 + (R * Real.sin φ - t) ^ 2 = R ^ 2 - 2 * (R * Real.sin φ * t) + t ^ 2 := by linear_combination R ^ 2 * hpyth
    rw [e]; linarith [add_sq R 42.9]
  -- the iteration
  generalize hrg : (Arith.sqrt (p.x * p.x + p.y * p.y) : F64) = r at *
  have hε : 1.74 * δ ≤ 1 / 10 := by first | linarith | (norm_num at *; linarith)
  have hne : p.z.val ≠ 0 ∨ r.val ≠ 0 := by
    by_contra hcon
    push Not at hcon
    have m2 := (tip_moved2 (Δ := 42.9 + 1.74 * δ) (x := r.val) (y := p.z.val) hφ (by
      have e : p.z.val - R * Real.sin φ = (p.z.val - (R * Real.sin φ - ellE2 * primeVertical φ * Real.sin φ)) - ellE2 * primeVertical φ * Real.sin φ := by ring
      rw [e]; exact (abs_sub_bd hzt ht).trans (by linarith)) hrt hr' (by first | linarith | (norm_num at *; linarith))).2
    rw [hcon.1, hcon.2] at m2
    simp only [ne_eq, OfNat.ofNat_ne_zero, not_false_eq_true, zero_pow, add_zero, Real.sqrt_zero, zero_sub, abs_neg] at m2
    rw [abs_of_pos (by linarith)] at m2
    first | linarith | (norm_num at *; linarith)
  obtain ⟨a1, a2, a3⟩ := atan2_right hL hp3.1 r1 hr0 hne
  have hst : |(Libm.atan2 p.z r).val - φ| ≤ 0.007 := by
    have m1 := (tip_moved2 (Δ := 42.9 + 1.74 * δ) (x := r.val) (y := p.z.val) hφ (by
      have e : p.z.val - R * Real.sin φ = (p.z.val - (R * Real.sin φ - ellE2 * primeVertical φ * Real.sin φ)) - ellE2 * primeVertical φ * Real.sin φ := by ring
      rw [e]; exact (abs_sub_bd hzt ht).trans (by linarith)) hrt hr' (by first | linarith | (norm_num at *; linarith))).1
    have e : (Libm.atan2 p.z r).val - φ = (atan2R p.z.val r.val - φ) + ((Libm.atan2 p.z r).val - atan2R p.z.val r.val) := by ring
    rw [e]
    refine (abs_add_bd m1 a3).trans ?_
    rw [← le_sub_iff_add_le, div_le_iff₀ (by first | linarith | (norm_num at *; linarith))]
    have : (42.9 + 1.74 * δ) * Real.cos φ ≤ 42.9 + 1.74 * δ := mul_le_of_le_one_right (by positivity) (Real.cos_le_one φ)
    first | linarith | (norm_num at *; linarith)
  obtain ⟨i1, i2, i3, ⟨x, i4, i5⟩, y, i6, i7⟩ := latLoop_near hL hp3 r1 hr0 hφ hR hR2 hzt hrt hε (st := (Libm.atan2 p.z r, (0.0 : F64))) a1 hst
  -- the result of the function
  have hgl : g.latitude = (latLoop p.z r 20 (Libm.atan2 p.z r, (0.0 : F64))).1 ∧
      g.height = r / Arith.cos (latLoop p.z r 20 (Libm.atan2 p.z r, (0.0 : F64))).1 - ellA * (latLoop p.z r 20 (Libm.atan2 p.z r, (0.0 : F64))).2 := by
    unfold eci_to_geodedic at hg
    dsimp only at hg
    split at hg
    · cases hg
    · split at hg
      · cases hg
      · injection hg with hg
        rw [← hg]
        dsimp only
        have e1 : (Arith.sqrt (powi2 p.x + powi2 p.y) : F64) = r := hrg
        rw [e1, hrg]
        exact ⟨rfl, rfl⟩
  obtain ⟨gl, gh⟩ := hgl
  rw [← gl] at i1 i2 i3 i7 gh
  have hfp : F64.fracPi2.val ≤ Real.pi / 2 := by
    rw [fracPi2_val.2]; have := Real.pi_gt_d20; first | linarith | (norm_num at *; linarith)
  have hpp : F64.pi.val ≤ Real.pi := by
    rw [pi_val.2]; have := Real.pi_gt_d20; first | linarith | (norm_num at *; linarith)
  refine ⟨i1, i2.trans hfp, ?_, o1, o2.trans hpp, ?_, ?_⟩
  · have h1 : |g.latitude.val - φ| * len O ≤ |g.latitude.val - φ| * (R + 42.9) := by gcongr
    have h2 : |g.latitude.val - φ| * (R + 42.9) ≤ 1.00684 * (|g.latitude.val - φ| * R) := by
      have h3 : R + 42.9 ≤ 1.00684 * R := by first | linarith | (norm_num at *; linarith)
      calc _ ≤ |g.latitude.val - φ| * (1.00684 * R) := by gcongr
        _ = _ := by ring
    refine h1.trans (h2.trans ?_)
    first | linarith | (norm_num at *; linarith)
  · intro m hm1 hm2
    have hm0 : 0 < m := lt_of_lt_of_le (by positivity) hm1
    rw [hO2] at hm2
    have hmD : m ≤ R * Real.cos φ := abs_le_of_sq_le_sq' hm2 hD0 |>.2
    have hmR : m ≤ 260000 := by
      have : R * Real.cos φ ≤ R * 1 := mul_le_mul_of_nonneg_left (Real.cos_le_one φ) (by linarith)
      linarith
    have hDp : 0 < R * Real.cos φ := lt_of_lt_of_le hm0 hmD
    have hnz : p.y.val ≠ 0 ∨ p.x.val ≠ 0 := by
      by_contra hcon
      push Not at hcon
      have h1 := c1.2
      have h2 := c2.2
      rw [hcon.2, zero_sub, abs_neg] at h1
      rw [hcon.1, zero_sub, abs_neg] at h2
      have h3 : |X.x| ^ 2 ≤ δ ^ 2 := by gcongr
      have h4 : |X.y| ^ 2 ≤ δ ^ 2 := by gcongr
      rw [sq_abs] at h3 h4
      have h5 : (20 * δ) ^ 2 ≤ m ^ 2 := by gcongr
      have h6 : 0 < δ ^ 2 := by positivity
      linarith [mul_pow 20 δ 2]
    obtain ⟨k1, hk1⟩ := o5 hnz
    obtain ⟨k2, hk2⟩ := angle_near c1.2 c2.2 hm0 (by rw [hX2]; exact hm2) (by linarith)
    obtain ⟨k3, hk3⟩ : SameAngle (atan2R X.y X.x) (G.longitude + θ') := by
      have b1 := atan2R_cos X.y X.x
      have b2 := atan2R_sin X.y X.x
      rw [hX2, Real.sqrt_sq hD0] at b1 b2
      exact sin_cos_eq_same (mul_left_cancel₀ hDp.ne' (b1.trans hXx)) (mul_left_cancel₀ hDp.ne' (b2.trans hXy))
    refine ⟨k1 + k2 + k3 - k, ?_⟩
    have e : g.longitude.val - (G.longitude + ((k1 + k2 + k3 - k : ℤ) : ℝ) * (2 * Real.pi)) =
        (g.longitude.val - (atan2R p.y.val p.x.val - θ.val + k1 * (2 * Real.pi))) +
          ((atan2R p.y.val p.x.val - (atan2R X.y X.x + k2 * (2 * Real.pi))) - (θ.val - (θ' + k * (2 * Real.pi)))) := by
      rw [hk3]; push_cast; ring
    rw [e]
    refine (abs_add_bd hk1 (abs_sub_bd hk2 hκ)).trans ?_
    have h1 : (|θ.val| + 11) ^ 2 / 2 ^ 52 + 1 / 2 ^ 48 ≤ 1 / 10 ^ 12 := by
      have : (|θ.val| + 11) ^ 2 ≤ 21 ^ 2 := by
        have := abs_nonneg θ.val
        gcongr; linarith
      first | linarith | (norm_num at *; linarith)
    have h2 : κ + 1 / 10 ^ 12 ≤ δ / m := by
      rw [le_div_iff₀ hm0]
      have hκ0 : 0 ≤ κ := (abs_nonneg _).trans hκ
      calc (κ + 1 / 10 ^ 12) * m ≤ (κ + 1 / 10 ^ 12) * 260000 := by gcongr
        _ ≤ _ := by first | linarith | (norm_num at *; linarith)
    have h3 : 4 * δ / m + δ / m = 5 * δ / m := by ring
    linarith
  · intro h1
    rw [hO2] at h1
    have hD : 1 ≤ R * Real.cos φ := by
      refine abs_le_of_sq_le_sq' (a := 1) ?_ hD0 |>.2
      rw [one_pow]; exact h1
    have q1 := normal_near hL r1 hr' i1 hφ hR hR2 hrt hε i6 (by first | linarith | (norm_num at *; linarith)) i7 hD
    have a : Q (ellA : F64) (ellA : ℝ) 6380 (709 / 10 ^ 15) := (Q.sci 6378137 true 3 (6380) (by norm_num)).mono (by norm_num) (by norm_num)
    have q2 := (a.mul i5).mono (A' := 6508) (δ' := 7 / 10 ^ 12) (by norm_num) (by norm_num)
    have q3 := q1.sub q2 (by first | linarith | (norm_num at *; linarith))
    rw [← gh] at q3
    refine ⟨q3.fin, ?_⟩
    have q4 := quotient_near i4
    have e : g.height.val - (G.height - heightError φ) = (g.height.val - (R - ellA * (1 / (1 - ellE2 * Real.sin x ^ 2)))) -
        (equatorial * (1 / (1 - ellE2 * Real.sin x ^ 2)) - equatorial * (1 / (1 - ellE2 * Real.sin φ ^ 2))) := by
      have hA : (ellA : ℝ) = equatorial := rfl
      rw [hA, hRd]; unfold heightError primeVertical; ring
    rw [e]
    refine (abs_sub_bd q3.err q4).trans ?_
    first | linarith | (norm_num at *; linarith)

/-- **C91.**  From the printed set and a calendar date, in doubles: the geodetic coordinates of the satellite.  The set is accepted, the state at the date
is computed; the position of the published theory at exactly that instant, turned by exactly the sidereal angle of that instant, has geodetic coordinates
`G` (not more than 125 km lower than the perigee of the mean orbit); and `eci_to_geodedic` returns, for any such `G`, a place that agrees with it up to 4.3 metres beyond the defect of C40. -/
theorem C91_ground_track_f64 (hL : Libm.Faithful) (l1 l2 : Str) (v : Tle) (h : Printed l1 l2 v) (hpos : v.nddotNeg = false ∨ v.nddotMant = 0)
    (hnd : Normal v.nddotMant) (hb : Normal v.bstarMant) (hday : v.dayE8 ≤ 400 * 10 ^ 8) (hl : LowTle v 0)
    (time : DateTimeUtc) (d : Date) (hd : d.InRange) (hy : time.year = d.year) (hm : time.month = d.month) (hdd : time.day = d.day)
    (hh : time.hour < 24) (hmi : time.minute < 60) (hse : time.second < 60) :
    ∃ (s : Satrec F64) (year nE nD : ℕ), twoline2satrec l1 l2 = .ok s ∧
      1957 ≤ year ∧ year ≤ 2056 ∧ (year : ℤ) % 100 = v.year ∧ base.after nE = ⟨year, 1, 1⟩ ∧ base.after nD = d ∧
      let τ : ℝ := ((nD : ℝ) - nE + 1 - (v.dayE8 : ℝ) / 10 ^ 8) * 1440 + time.hour * 60 + time.minute + (time.second : ℝ) / 60
      |τ| ≤ 43199 → |tleDrag v * τ| * tleLow v ^ 5 ≤ 1.99 →
        let m := (tleOrbit v).mean (tleNode v) τ
        ∃ (p : SGP4Result F64) (E : ℝ) (g : Geodedic F64), propogate_datetime s time = some (.ok p) ∧
          m.kepler E = 0 ∧ (∀ E', m.kepler E' = 0 → E' = E) ∧
          eci_to_geodedic p.position (gstime_datetime time) = some g ∧
          let O := rotZ (-siderealAngle nD time) (vec (m.positionKm E))
          (∃ G : Geodedic ℝ, Stands G O ∧ |G.latitude| ≤ Real.pi / 2 ∧ |G.longitude| ≤ Real.pi ∧
            6378.137 * ((tleOrbit v).a * (1 - tleEcc v) - 1) - 125 ≤ G.height) ∧
          ∀ G : Geodedic ℝ, Stands G O → |G.latitude| ≤ Real.pi / 2 → -100 ≤ G.height → Tracks g G O (4.3 / 10 ^ 3) := by
  obtain ⟨s, year, nE, nD, hs, y1, y2, y3, y4, y5, hh'⟩ := C85_state_at_date_f64 hL l1 l2 v h hpos hnd hb hday hl time d hd hy hm hdd hh hmi hse
  refine ⟨s, year, nE, nD, hs, y1, y2, y3, y4, y5, ?_⟩
  intro τ h1 h2 m
  obtain ⟨p, k1, E, k2, k3, k4, -⟩ := hh' h1 h2
  have hQ : Quiet (tleOrbit v) τ := quiet_low hL h hpos hnd hb { hl with time := h1.trans (by norm_num), drag := h2.trans (by norm_num) }
  have hB := position_bound hQ (tleNode v) E
  have hper : 6618 ≤ 6378.137 * ((tleOrbit v).a * (1 - tleEcc v)) := by have := hl.perigee; norm_num at this ⊢; linarith
  have hH := position_high hQ (tleNode v) E
  have hn : nD ≤ 72000 := by
    have b1 := epoch_days y1 y2 y4
    have hd8 : (v.dayE8 : ℝ) / 10 ^ 8 ≤ 400 := by
      rw [div_le_iff₀ (by positivity)]; exact_mod_cast hday
    have p1 : (0 : ℝ) ≤ time.hour := Nat.cast_nonneg _
    have p2 : (0 : ℝ) ≤ time.minute := Nat.cast_nonneg _
    have p3 : (0 : ℝ) ≤ (time.second : ℝ) / 60 := by positivity
    have b2 : (nE : ℝ) ≤ 60000 := by exact_mod_cast b1
    have b3 := (abs_le.mp h1).2
    have b4 : (nD : ℝ) ≤ 72000 := by
      have : τ = ((nD : ℝ) - nE + 1 - (v.dayE8 : ℝ) / 10 ^ 8) * 1440 + time.hour * 60 + time.minute + (time.second : ℝ) / 60 := rfl
      linarith
    exact_mod_cast b4
  obtain ⟨g1, g3, k, g2⟩ := sidereal_f64 time d hd hy hm hdd hh hmi hse nD y5 hn
  have comp : ∀ {x : F64} {r : ℝ}, Close x r (4.3 / 10 ^ 3) → |r| ≤ 20300 → Within x 100000 := by
    intro x r a1 a2
    refine ⟨a1.1, ?_⟩
    have e : x.val = (x.val - r) + r := by ring
    rw [e]; exact (abs_add_bd a1.2 a2).trans (by norm_num)
  have hbd : p.position.Bounded := ⟨comp k4.1 (hB 0), comp k4.2.1 (hB 1), comp k4.2.2 (hB 2)⟩
  set X := vec (m.positionKm E) with hX
  set O := rotZ (-siderealAngle nD time) X with hO
  have hback : rotZ (siderealAngle nD time) O = X := by
    have := Real.sin_sq_add_cos_sq (siderealAngle nD time)
    rw [hO]
    ext
    · simp only [rotZ, Real.sin_neg, Real.cos_neg]; linear_combination X.x * this
    · simp only [rotZ, Real.sin_neg, Real.cos_neg]; linear_combination X.y * this
    · rfl
  have hlen : O.x ^ 2 + O.y ^ 2 + O.z ^ 2 = len X ^ 2 := by
    have := Real.sin_sq_add_cos_sq (siderealAngle nD time)
    rw [len_sq, hO]
    simp only [rotZ, Real.sin_neg, Real.cos_neg]; linear_combination (X.x ^ 2 + X.y ^ 2) * this
  have hD : 6345 ≤ 6378.137 * ((tleOrbit v).a * (1 - tleEcc v)) - 60 := by linarith
  have hD2 : (6378.137 * ((tleOrbit v).a * (1 - tleEcc v)) - 60) ^ 2 ≤ O.x ^ 2 + O.y ^ 2 + O.z ^ 2 := by
    rw [hlen]
    exact pow_le_pow_left₀ (le_trans (by norm_num) hD) hH 2
  obtain ⟨G, s1, s2, s3, s4⟩ := has_place O hD hD2
  have hG : -100 ≤ G.height := by norm_num at s4 hper ⊢; linarith
  have key : ∀ G : Geodedic ℝ, Stands G O → |G.latitude| ≤ Real.pi / 2 → -100 ≤ G.height →
      ∃ g, eci_to_geodedic p.position (gstime_datetime time) = some g ∧ Tracks g G O (4.3 / 10 ^ 3) := fun G q1 q2 q3 =>
    track_near hL hbd g1 g3 q1 q2 q3 g2 (by norm_num) (by norm_num) (by norm_num) (by rw [hback]; exact k4)
  obtain ⟨g, t1, -⟩ := key G s1 s2 hG
  refine ⟨p, E, g, k1, k2, k3, t1, ⟨G, s1, s2, s3, by norm_num at s4 ⊢; linarith⟩, fun G' q1 q2 q3 => ?_⟩
  obtain ⟨g', t2, t3⟩ := key G' q1 q2 q3
  rw [t1] at t2
  injection t2 with t2
  rw [t2]; exact t3

/-- The weather satellite of `Props/F64Text.lean` on 2020 February 5 at 6:30:15. -/
theorem noaa_track (hL : Libm.Faithful) (time : DateTimeUtc) (h1 : time.year = 2020) (h2 : time.month = 2) (h3 : time.day = 5) (h4 : time.hour = 6)
    (h5 : time.minute = 30) (h6 : time.second = 15) :
    ∃ (s : Satrec F64) (p : SGP4Result F64) (g : Geodedic F64) (G : Geodedic ℝ) (O : Vec3 ℝ), twoline2satrec noaaLine1 noaaLine2 = .ok s ∧
      propogate_datetime s time = some (.ok p) ∧ eci_to_geodedic p.position (gstime_datetime time) = some g ∧ Stands G O ∧ 290 ≤ G.height ∧
      Tracks g G O (4.3 / 10 ^ 3) := by
  obtain ⟨s, year, nE, nD, hs, y1, y2, y3, y4, y5, hh⟩ := C91_ground_track_f64 hL _ _ _ noaa_printed (Or.inl rfl) (Or.inl rfl) (Or.inr (by decide))
    (by decide) (noaa_low (τ := 0) (by norm_num)) time ⟨2020, 2, 5⟩ ⟨by decide, by unfold Date.before base; decide, by unfold Date.before; decide⟩ h1 h2 h3
    (by omega) (by omega) (by omega)
  have ey : year = 2020 := by
    have e : (noaaTle.year : ℤ) = 20 := rfl
    rw [e] at y3; omega
  have e1 := (serial_after nE).2.2
  have e2 := (serial_after nD).2.2
  rw [y4, ey] at e1
  rw [y5] at e2
  have e3 : serial ⟨2020, 2, 5⟩ = serial ⟨2020, 1, 1⟩ + 35 := by decide +kernel
  have e4 : (nD : ℝ) = nE + 35 := by exact_mod_cast (by omega : nD = nE + 35)
  have e5 : ((nD : ℝ) - nE + 1 - (noaaTle.dayE8 : ℝ) / 10 ^ 8) * 1440 + time.hour * 60 + time.minute + (time.second : ℝ) / 60 =
      (36 - 29.54791435) * 1440 + 6 * 60 + 30 + 15 / 60 := by
    rw [e4, h4, h5, h6, show (noaaTle.dayE8 : ℝ) = 2954791435 by unfold noaaTle; norm_num]; norm_num
  dsimp only at hh
  rw [e5] at hh
  have hd : tleDrag noaaTle = 59621 / 10 ^ 9 := by
    unfold tleDrag impliedValue sexp noaaTle; norm_num
  obtain ⟨p, E, g, k1, -, -, k2, ⟨G, s1, s2, s3, s4⟩, k4⟩ := hh (by norm_num [abs_of_pos]) (by rw [hd, noaa_lowness]; norm_num [abs_of_pos])
  have h290 : 290 ≤ G.height := by
    have := noaa_axis
    norm_num at this s4 ⊢; linarith
  exact ⟨s, p, g, G, _, hs, k1, k2, s1, h290, k4 G s1 s2 (by linarith)⟩

end Sat
