import Verif.Props.F64EpochVelocity
/-!
# C112 for deep-space satellites

At the epoch this program leaves all mean elements of a deep-space satellite as printed, except that the inclination gets its lunar and solar
periodics (at most a degree).  So the state reported is that on the classical ellipse again.
-/

namespace Sat
open F64 hiding sub
open Spec Spec.R3 Spec.SDP Chain

/-- Mean elements at the epoch: the printed ones, with some inclination `i`. -/
structure EpochMean (q : Orbit) (node i : ℝ) (m : Mean) : Prop where
  eq : m = { a := q.a, e := max q.e (1 / 10 ^ 6), ω := q.argp, Ω := node, L := q.anom + q.argp + node, i := i }
  fair : Fair m
  e0 : 0 ≤ m.e
  e1 : m.e ≤ 0.44
  per : 1.001 ≤ m.a * (1 - m.e)
  par : 1 ≤ m.a * (1 - m.e ^ 2)
  q0 : 0 ≤ q.e
  q1 : q.e ≤ 0.43
  incl : 1 / 100 ≤ 1 + Real.cos i

theorem deep_plane_epoch {q : Orbit} {node i : ℝ} {m : Mean} (H : EpochMean q node i m) (A F : ℝ) {k : ℝ} (hA : 0 < A) (b1 : 0.996 * A ≤ q.a * 6378.137) (b2 : q.a * 6378.137 ≤ 1.0045 * A)
    (hF : F - q.e * Real.sin F = q.anom) (hk : |m.kepler k| ≤ 1.45e-12) :
    ‖((m.rk k * kmPerRadius : ℝ) : ℂ) * dir (m.uk k) - (A : ℂ) * ellipse ((q.e : ℂ) * dir q.argp) (F + q.argp)‖ ≤
      (0.0118 + 0.0484 * q.e) * A := by
  obtain ⟨hm, FA, g1, g2, g3, g4, e0, e1, hinc⟩ := H
  have hu := uk_near FA k
  obtain ⟨p1, p2, p3, -, p5, -, p7, -, -⟩ := perturbation_bounds m k ⟨g1, g2.trans (by norm_num)⟩ (le_trans (by norm_num) g3)
  have hr0 : m.r k ≠ 0 := by norm_num at p3; intro h0; rw [h0] at p3; norm_num at p3
  have hEl := ellipse_mean m k hr0 p5
  have hec := FA.ecc
  have hll := longL_abs hinc
  have hay := longAy_abs i
  have hz : ‖(⟨m.axN, m.ayN⟩ : ℂ)‖ ≤ 0.45 := by
    rw [Complex.norm_def]
    refine Real.sqrt_le_iff.mpr ⟨by norm_num, ?_⟩
    rw [Complex.normSq_mk]
    unfold Mean.eL2 at hec
    nlinarith only [hec]
  have hw : ‖(q.e : ℂ) * dir q.argp‖ = q.e := by rw [norm_mul, dir_norm, mul_one, Complex.norm_real, Real.norm_eq_abs, abs_of_nonneg e0]
  have ma : m.a = q.a := by rw [hm]
  have me : m.e = max q.e (1 / 10 ^ 6) := by rw [hm]
  have mw : m.ω = q.argp := by rw [hm]
  have mi : m.i = i := by rw [hm]
  have mU : m.U = q.anom + q.argp + longL i / (m.a * (1 - m.e ^ 2)) * m.axN := by
    unfold Mean.U
    rw [mi, show m.L = q.anom + q.argp + node by rw [hm], show m.Ω = node by rw [hm]]; ring
  have hme : |m.e - q.e| ≤ 0.000001 := by
    rw [me]
    rcases le_total q.e (1 / 10 ^ 6) with h | h
    · rw [max_eq_right h, abs_le]; constructor <;> norm_num at h ⊢ <;> linarith only [h, e0]
    · rw [max_eq_left h, sub_self, abs_zero]; norm_num
  have hp0 : 0 < m.a * (1 - m.e ^ 2) := lt_of_lt_of_le one_pos g4
  -- the eccentricity vector
  set z : ℂ := ⟨m.axN, m.ayN⟩ with hzd
  set w : ℂ := (q.e : ℂ) * dir q.argp with hwd
  have hzw : ‖z - w‖ ≤ 0.001171 + 0.000001 := by
    have e : z - w = ((m.e - q.e : ℝ) : ℂ) * dir q.argp + ((longAy i / (m.a * (1 - m.e ^ 2)) : ℝ) : ℂ) * Complex.I := by
      rw [hzd, hwd]
      unfold Mean.axN Mean.ayN dir
      rw [mw, mi]
      apply Complex.ext
      · simp only [Complex.sub_re, Complex.add_re, Complex.mul_re, Complex.ofReal_re, Complex.ofReal_im, Complex.I_re, Complex.I_im]; ring
      · simp only [Complex.sub_im, Complex.add_im, Complex.mul_im, Complex.ofReal_re, Complex.ofReal_im, Complex.I_re, Complex.I_im]; ring
    rw [e]
    refine (norm_add_le _ _).trans ?_
    rw [norm_mul, norm_mul, dir_norm, Complex.norm_I, mul_one, mul_one, Complex.norm_real, Complex.norm_real, Real.norm_eq_abs, Real.norm_eq_abs, add_comm]
    refine add_le_add ?_ hme
    rw [abs_div, abs_of_pos hp0, div_le_iff₀ hp0]
    norm_num at hay ⊢; linarith only [hay, g4]
  -- the eccentric longitude
  have hUV : |m.U - (q.anom + q.argp)| ≤ 0.0202 * (q.e + 0.000001) := by
    rw [mU, add_sub_cancel_left, abs_mul]
    refine mul_le_mul ?_ ?_ (abs_nonneg _) (by norm_num)
    · rw [abs_div, abs_of_pos hp0, div_le_iff₀ hp0]
      norm_num at hll ⊢; linarith only [hll, g4]
    · unfold Mean.axN
      rw [abs_mul, abs_of_nonneg g1]
      have := (abs_le.mp hme).2
      exact (mul_le_of_le_one_right g1 (Real.abs_cos_le_one _)).trans (by linarith only [this])
  have hE : k = m.U + esin z k - m.kepler k := by
    rw [hzd]; unfold esin Mean.kepler; ring
  have hs : esin w (F + q.argp) = q.e * Real.sin F := by
    rw [hwd]; unfold esin dir
    simp only [Complex.mul_re, Complex.mul_im, Complex.ofReal_re, Complex.ofReal_im, Real.sin_add, Real.cos_add]
    linear_combination q.e * Real.sin F * Real.sin_sq_add_cos_sq q.argp
  have hV : F + q.argp = (q.anom + q.argp) + esin w (F + q.argp) := by rw [hs]; linarith only [hF]
  have hEF := anomaly_close (e := q.e) hw.le hE hV
  have hδ : |k - (F + q.argp)| ≤ 0.0021 + 0.0355 * q.e := by
    have : 0.57 * |k - (F + q.argp)| ≤ (1 - q.e) * |k - (F + q.argp)| := mul_le_mul_of_nonneg_right (by norm_num at e1 ⊢; linarith only [e1]) (abs_nonneg _)
    norm_num at this hEF hUV hzw hk ⊢; linarith only [this, hEF, hUV, hzw, hk, e0]
  have hcl := ellipse_close (z := z) (w := w) (E := k) (F := F + q.argp) hz (hw.le.trans (e1.trans (by norm_num)))
  have hcl2 : ‖ellipse z k - ellipse w (F + q.argp)‖ ≤ 0.0043 + 0.0409 * q.e := by
    norm_num at hcl hzw hδ ⊢; linarith only [hcl, hzw, hδ, e0]
  obtain ⟨-, hn⟩ := ellipse_classical ⟨e0, lt_of_le_of_lt e1 (by norm_num)⟩ q.argp F
  -- short-period terms
  have hr1 : m.r k ≤ m.a * (1.0013 + q.e) := by
    unfold Mean.r
    refine mul_le_mul_of_nonneg_left ?_ (le_trans zero_le_one p1)
    have hzn : ‖z‖ ≤ q.e + 0.0012 := by
      have := norm_le_norm_add_norm_sub' z w
      rw [hw] at this
      norm_num at hzw ⊢; linarith only [this, hzw]
    have hq : m.eL2 ≤ (q.e + 0.0012) ^ 2 := by
      have e : m.eL2 = ‖z‖ ^ 2 := by
        rw [← Complex.normSq_eq_norm_sq, hzd, Complex.normSq_mk]; unfold Mean.eL2; ring
      rw [e]; exact pow_le_pow_left₀ (norm_nonneg _) hzn 2
    have := (abs_le.mp (ecosE_le hq (by positivity) k)).1
    norm_num at this ⊢; linarith only [this]
  have hrp : 0 < m.r k := lt_of_lt_of_le (by norm_num) p3
  have hK : (kmPerRadius : ℝ) = 6378.137 := rfl
  set B := q.a * 6378.137 with hB
  have hB0 : 0 < B := lt_of_lt_of_le (by positivity) b1
  have t1 : ‖((m.rk k * kmPerRadius : ℝ) : ℂ) * dir (m.uk k) - ((m.r k * kmPerRadius : ℝ) : ℂ) * dir (m.u k)‖ ≤ 0.002734 * (B * (1.0013 + q.e)) := by
    have e : ((m.rk k * kmPerRadius : ℝ) : ℂ) * dir (m.uk k) - ((m.r k * kmPerRadius : ℝ) : ℂ) * dir (m.u k) =
        (((m.rk k - m.r k) * kmPerRadius : ℝ) : ℂ) * dir (m.uk k) + ((m.r k * kmPerRadius : ℝ) : ℂ) * (dir (m.uk k) - dir (m.u k)) := by
      push_cast; ring
    rw [e]
    have n1 := norm_add_le ((((m.rk k - m.r k) * kmPerRadius : ℝ) : ℂ) * dir (m.uk k)) (((m.r k * kmPerRadius : ℝ) : ℂ) * (dir (m.uk k) - dir (m.u k)))
    rw [norm_mul, norm_mul, dir_norm, mul_one, Complex.norm_real, Complex.norm_real, Real.norm_eq_abs, Real.norm_eq_abs, abs_mul, abs_mul,
      abs_of_pos hrp, hK, abs_of_pos (by norm_num : (0 : ℝ) < 6378.137)] at n1
    rw [hK]
    refine n1.trans ?_
    have n2 : m.r k * 6378.137 * ‖dir (m.uk k) - dir (m.u k)‖ ≤ m.r k * 6378.137 * 0.00082 :=
      mul_le_mul_of_nonneg_left ((dir_sub_le _ _).trans hu) (by positivity)
    have n3 : |m.rk k - m.r k| * 6378.137 ≤ 0.001914 * m.r k * 6378.137 := mul_le_mul_of_nonneg_right p7 (by norm_num)
    calc _ ≤ 0.001914 * m.r k * 6378.137 + m.r k * 6378.137 * 0.00082 := add_le_add n3 n2
      _ = 0.002734 * (m.r k * 6378.137) := by ring
      _ ≤ 0.002734 * (m.a * (1.0013 + q.e) * 6378.137) := by gcongr
      _ = _ := by rw [hB, ma]; ring
  have t2 : ‖((m.r k * kmPerRadius : ℝ) : ℂ) * dir (m.u k) - (A : ℂ) * ellipse w (F + q.argp)‖ ≤ B * (0.0043 + 0.0409 * q.e) + 0.0045 * A * (1 + q.e) := by
    have e : ((m.r k * kmPerRadius : ℝ) : ℂ) * dir (m.u k) - (A : ℂ) * ellipse w (F + q.argp) =
        (B : ℂ) * (ellipse z k - ellipse w (F + q.argp)) + ((B - A : ℝ) : ℂ) * ellipse w (F + q.argp) := by
      have e2 : ((m.r k * kmPerRadius : ℝ) : ℂ) * dir (m.u k) = (kmPerRadius : ℂ) * ((m.r k : ℂ) * dir (m.u k)) := by push_cast; ring
      rw [e2, hEl, ma, hK, hB]
      push_cast; ring
    rw [e]
    refine (norm_add_le _ _).trans (add_le_add ?_ ?_)
    · rw [norm_mul, Complex.norm_real, Real.norm_eq_abs, abs_of_pos hB0]; exact mul_le_mul_of_nonneg_left hcl2 hB0.le
    · rw [norm_mul, Complex.norm_real, Real.norm_eq_abs]
      refine mul_le_mul ?_ hn (norm_nonneg _) (by positivity)
      rw [abs_le]; constructor <;> norm_num at b1 b2 ⊢ <;> linarith only [b1, b2, hA]
  have t3 := norm_sub_le_norm_sub_add_norm_sub (((m.rk k * kmPerRadius : ℝ) : ℂ) * dir (m.uk k)) (((m.r k * kmPerRadius : ℝ) : ℂ) * dir (m.u k))
    ((A : ℂ) * ellipse w (F + q.argp))
  refine t3.trans ((add_le_add t1 t2).trans ?_)
  have s1 : 0.002734 * (B * (1.0013 + q.e)) ≤ 0.002734 * (1.0045 * A * (1.0013 + q.e)) := by gcongr
  have s2 : B * (0.0043 + 0.0409 * q.e) ≤ 1.0045 * A * (0.0043 + 0.0409 * q.e) := by gcongr
  have s3 : 0 ≤ A * q.e := by positivity
  norm_num at s1 s2 ⊢
  nlinarith only [s1, s2, s3, hA]

/-- eccentricity vector and eccentric longitude of the theory at the epoch against the classical ones -/
theorem deep_vector_epoch {q : Orbit} {node i : ℝ} {m : Mean} (H : EpochMean q node i m) (F : ℝ) {k : ℝ} (hF : F - q.e * Real.sin F = q.anom) (hk : |m.kepler k| ≤ 1.45e-12) :
    ‖(⟨m.axN, m.ayN⟩ : ℂ) - (q.e : ℂ) * dir q.argp‖ ≤ 0.001172 ∧ |k - (F + q.argp)| ≤ 0.0021 + 0.0355 * q.e ∧
      ‖(⟨m.axN, m.ayN⟩ : ℂ)‖ ≤ 0.45 ∧ m.a = q.a := by
  obtain ⟨hm, FA, g1, g2, g3, g4, e0, e1, hinc⟩ := H
  have hec := FA.ecc
  have hll := longL_abs hinc
  have hay := longAy_abs i
  have hz : ‖(⟨m.axN, m.ayN⟩ : ℂ)‖ ≤ 0.45 := by
    rw [Complex.norm_def]
    refine Real.sqrt_le_iff.mpr ⟨by norm_num, ?_⟩
    rw [Complex.normSq_mk]
    unfold Mean.eL2 at hec
    nlinarith only [hec]
  have hw : ‖(q.e : ℂ) * dir q.argp‖ = q.e := by rw [norm_mul, dir_norm, mul_one, Complex.norm_real, Real.norm_eq_abs, abs_of_nonneg e0]
  have ma : m.a = q.a := by rw [hm]
  have me : m.e = max q.e (1 / 10 ^ 6) := by rw [hm]
  have mw : m.ω = q.argp := by rw [hm]
  have mi : m.i = i := by rw [hm]
  have mU : m.U = q.anom + q.argp + longL i / (m.a * (1 - m.e ^ 2)) * m.axN := by
    unfold Mean.U
    rw [mi, show m.L = q.anom + q.argp + node by rw [hm], show m.Ω = node by rw [hm]]; ring
  have hme : |m.e - q.e| ≤ 0.000001 := by
    rw [me]
    rcases le_total q.e (1 / 10 ^ 6) with h | h
    · rw [max_eq_right h, abs_le]; constructor <;> norm_num at h ⊢ <;> linarith only [h, e0]
    · rw [max_eq_left h, sub_self, abs_zero]; norm_num
  have hp0 : 0 < m.a * (1 - m.e ^ 2) := lt_of_lt_of_le one_pos g4
  -- the eccentricity vector
  set z : ℂ := ⟨m.axN, m.ayN⟩ with hzd
  set w : ℂ := (q.e : ℂ) * dir q.argp with hwd
  have hzw : ‖z - w‖ ≤ 0.001171 + 0.000001 := by
    have e : z - w = ((m.e - q.e : ℝ) : ℂ) * dir q.argp + ((longAy i / (m.a * (1 - m.e ^ 2)) : ℝ) : ℂ) * Complex.I := by
      rw [hzd, hwd]
      unfold Mean.axN Mean.ayN dir
      rw [mw, mi]
      apply Complex.ext
      · simp only [Complex.sub_re, Complex.add_re, Complex.mul_re, Complex.ofReal_re, Complex.ofReal_im, Complex.I_re, Complex.I_im]; ring
      · simp only [Complex.sub_im, Complex.add_im, Complex.mul_im, Complex.ofReal_re, Complex.ofReal_im, Complex.I_re, Complex.I_im]; ring
    rw [e]
    refine (norm_add_le _ _).trans ?_
    rw [norm_mul, norm_mul, dir_norm, Complex.norm_I, mul_one, mul_one, Complex.norm_real, Complex.norm_real, Real.norm_eq_abs, Real.norm_eq_abs, add_comm]
    refine add_le_add ?_ hme
    rw [abs_div, abs_of_pos hp0, div_le_iff₀ hp0]
    norm_num at hay ⊢; linarith only [hay, g4]
  -- the eccentric longitude
  have hUV : |m.U - (q.anom + q.argp)| ≤ 0.0202 * (q.e + 0.000001) := by
    rw [mU, add_sub_cancel_left, abs_mul]
    refine mul_le_mul ?_ ?_ (abs_nonneg _) (by norm_num)
    · rw [abs_div, abs_of_pos hp0, div_le_iff₀ hp0]
      norm_num at hll ⊢; linarith only [hll, g4]
    · unfold Mean.axN
      rw [abs_mul, abs_of_nonneg g1]
      have := (abs_le.mp hme).2
      exact (mul_le_of_le_one_right g1 (Real.abs_cos_le_one _)).trans (by linarith only [this])
  have hE : k = m.U + esin z k - m.kepler k := by
    rw [hzd]; unfold esin Mean.kepler; ring
  have hs : esin w (F + q.argp) = q.e * Real.sin F := by
    rw [hwd]; unfold esin dir
    simp only [Complex.mul_re, Complex.mul_im, Complex.ofReal_re, Complex.ofReal_im, Real.sin_add, Real.cos_add]
    linear_combination q.e * Real.sin F * Real.sin_sq_add_cos_sq q.argp
  have hV : F + q.argp = (q.anom + q.argp) + esin w (F + q.argp) := by rw [hs]; linarith only [hF]
  have hEF := anomaly_close (e := q.e) hw.le hE hV
  have hδ : |k - (F + q.argp)| ≤ 0.0021 + 0.0355 * q.e := by
    have : 0.57 * |k - (F + q.argp)| ≤ (1 - q.e) * |k - (F + q.argp)| := mul_le_mul_of_nonneg_right (by norm_num at e1 ⊢; linarith only [e1]) (abs_nonneg _)
    norm_num at this hEF hUV hzw hk ⊢; linarith only [this, hEF, hUV, hzw, hk, e0]
  exact ⟨hzw.trans (by norm_num), hδ, hz, ma⟩

theorem deep_plane_velocity {q : Orbit} {node i : ℝ} {m : Mean} (H : EpochMean q node i m) (S F : ℝ) {k : ℝ} (hS : 0 < S)
    (b1 : 0.9919 * S ≤ ke / Real.sqrt q.a * (6378.137 / 60)) (b2 : ke / Real.sqrt q.a * (6378.137 / 60) ≤ 1.0081 * S)
    (hF : F - q.e * Real.sin F = q.anom) (hk : |m.kepler k| ≤ 1.45e-12) :
    ‖((kmPerRadius / 60 : ℝ) : ℂ) * ((⟨m.rdotk k, m.rfdotk k⟩ : ℂ) * dir (m.uk k)) -
      (S : ℂ) * hodo ((q.e : ℂ) * dir q.argp) (F + q.argp)‖ ≤ (0.0281 + 0.1411 * q.e) * S := by
  obtain ⟨v1, v2, v3, ma⟩ := deep_vector_epoch H F hF hk
  obtain ⟨hm, FA, g1, g2, g3, g4, e0, e1, hinc⟩ := H
  have hu := uk_near FA k
  obtain ⟨p1, p2, p3, -, p5, -, -, p8, p9⟩ := perturbation_bounds m k ⟨g1, g2.trans (by norm_num)⟩ (le_trans (by norm_num) g3)
  have hw : ‖(q.e : ℂ) * dir q.argp‖ = q.e := by rw [norm_mul, dir_norm, mul_one, Complex.norm_real, Real.norm_eq_abs, abs_of_nonneg e0]
  have ha0 : 0 < m.a := lt_of_lt_of_le one_pos p1
  have hH := hodo_mean m k ha0 (lt_of_lt_of_le (by norm_num) p3) p5
  obtain ⟨-, hD, -, hn⟩ := hodo_classical (e := q.e) ⟨e0, e1⟩ q.argp F
  have hcl := hodo_close (E := k) v3 (hw.le.trans e1) hD
  set z : ℂ := ⟨m.axN, m.ayN⟩ with hzd
  set w : ℂ := (q.e : ℂ) * dir q.argp with hwd
  have hcl2 : ‖hodo z k - hodo w (F + q.argp)‖ ≤ 0.01673 + 0.12426 * q.e := by norm_num at hcl v1 v2 ⊢; linarith only [hcl, v1, v2, e0]
  -- short-period terms
  set N := ke / Real.sqrt m.a with hN
  have N0 : 0 < N := div_pos ke_pos (Real.sqrt_pos.mpr ha0)
  have hmn : m.n ≤ N := by
    unfold Mean.n
    rw [hN]
    refine div_le_div_of_nonneg_left ke_pos.le (Real.sqrt_pos.mpr ha0) ?_
    rw [Real.sqrt_eq_rpow]
    exact Real.rpow_le_rpow_of_exponent_le p1 (by norm_num)
  have hmn0 : 0 < m.n := div_pos ke_pos (Real.rpow_pos_of_pos ha0 _)
  have hsm : R3.k2 * m.n / m.pL ≤ 0.000543 * N := by
    rw [div_le_iff₀ (lt_of_lt_of_le (by norm_num) p2)]
    have h1 : R3.k2 ≤ 0.00054132 := by unfold R3.k2 R3.j2; norm_num
    calc R3.k2 * m.n ≤ 0.00054132 * N := mul_le_mul h1 hmn hmn0.le (by norm_num)
      _ ≤ 0.000543 * N * 0.998 := by norm_num; linarith only [N0]
      _ ≤ _ := mul_le_mul_of_nonneg_left p2 (by positivity)
  have hHn : ‖hodo z k‖ ≤ 1.017 + 1.88 * q.e := by
    have := norm_le_norm_add_norm_sub' (hodo z k) (hodo w (F + q.argp))
    norm_num at this hn hcl2 ⊢; linarith only [this, hn, hcl2, e0]
  have hV : ‖(⟨m.rdot k, m.rfdot k⟩ : ℂ)‖ ≤ N * (1.017 + 1.88 * q.e) := by
    have : ‖(⟨m.rdot k, m.rfdot k⟩ : ℂ) * dir (m.u k)‖ = ‖(⟨m.rdot k, m.rfdot k⟩ : ℂ)‖ := by rw [norm_mul, dir_norm, mul_one]
    rw [← this, hH, norm_mul, Complex.norm_real, Real.norm_eq_abs, abs_of_pos N0]
    exact mul_le_mul_of_nonneg_left hHn N0.le
  have t1 : ‖(⟨m.rdotk k, m.rfdotk k⟩ : ℂ) * dir (m.uk k) - (⟨m.rdot k, m.rfdot k⟩ : ℂ) * dir (m.u k)‖ ≤ N * (0.003006 + 0.001542 * q.e) := by
    have e : (⟨m.rdotk k, m.rfdotk k⟩ : ℂ) * dir (m.uk k) - (⟨m.rdot k, m.rfdot k⟩ : ℂ) * dir (m.u k) =
        (⟨m.rdotk k - m.rdot k, m.rfdotk k - m.rfdot k⟩ : ℂ) * dir (m.uk k) + (⟨m.rdot k, m.rfdot k⟩ : ℂ) * (dir (m.uk k) - dir (m.u k)) := by
      have : (⟨m.rdotk k - m.rdot k, m.rfdotk k - m.rfdot k⟩ : ℂ) = (⟨m.rdotk k, m.rfdotk k⟩ : ℂ) - ⟨m.rdot k, m.rfdot k⟩ := rfl
      rw [this]; ring
    rw [e]
    refine (norm_add_le _ _).trans ?_
    rw [norm_mul, norm_mul, dir_norm, mul_one]
    have n1 := Complex.norm_le_abs_re_add_abs_im (⟨m.rdotk k - m.rdot k, m.rfdotk k - m.rfdot k⟩ : ℂ)
    have n2 : ‖(⟨m.rdot k, m.rfdot k⟩ : ℂ)‖ * ‖dir (m.uk k) - dir (m.u k)‖ ≤ N * (1.017 + 1.88 * q.e) * 0.00082 :=
      mul_le_mul hV ((dir_sub_le _ _).trans hu) (norm_nonneg _) (by positivity)
    refine (add_le_add (n1.trans (add_le_add p8 p9)) n2).trans ?_
    have s3 : 0 ≤ N * q.e := by positivity
    norm_num at hsm ⊢; linarith only [hsm, s3, N0]
  -- the scale
  set B := N * (6378.137 / 60) with hB
  have b3 : 0.9919 * S ≤ B := by rw [hB, hN, ma]; exact b1
  have b4 : B ≤ 1.0081 * S := by rw [hB, hN, ma]; exact b2
  have hB0 : 0 < B := lt_of_lt_of_le (by positivity) b3
  have e : ((kmPerRadius / 60 : ℝ) : ℂ) * ((⟨m.rdotk k, m.rfdotk k⟩ : ℂ) * dir (m.uk k)) - (S : ℂ) * hodo w (F + q.argp) =
      ((kmPerRadius / 60 : ℝ) : ℂ) * ((⟨m.rdotk k, m.rfdotk k⟩ : ℂ) * dir (m.uk k) - (⟨m.rdot k, m.rfdot k⟩ : ℂ) * dir (m.u k)) +
        (B : ℂ) * (hodo z k - hodo w (F + q.argp)) + ((B - S : ℝ) : ℂ) * hodo w (F + q.argp) := by
    rw [hH, hB, show (kmPerRadius : ℝ) = 6378.137 from rfl]; push_cast; ring
  rw [e]
  have u1 : ‖((kmPerRadius / 60 : ℝ) : ℂ) * ((⟨m.rdotk k, m.rfdotk k⟩ : ℂ) * dir (m.uk k) - (⟨m.rdot k, m.rfdot k⟩ : ℂ) * dir (m.u k))‖ ≤
      1.0081 * S * (0.003006 + 0.001542 * q.e) := by
    rw [norm_mul, Complex.norm_real, Real.norm_eq_abs, show (kmPerRadius : ℝ) = 6378.137 from rfl, abs_of_pos (by norm_num)]
    calc _ ≤ 6378.137 / 60 * (N * (0.003006 + 0.001542 * q.e)) := mul_le_mul_of_nonneg_left t1 (by norm_num)
      _ = B * (0.003006 + 0.001542 * q.e) := by rw [hB]; ring
      _ ≤ _ := mul_le_mul_of_nonneg_right b4 (by positivity)
  have u2 : ‖(B : ℂ) * (hodo z k - hodo w (F + q.argp))‖ ≤ 1.0081 * S * (0.01673 + 0.12426 * q.e) := by
    rw [norm_mul, Complex.norm_real, Real.norm_eq_abs, abs_of_pos hB0]
    exact mul_le_mul b4 hcl2 (norm_nonneg _) (by positivity)
  have u3 : ‖((B - S : ℝ) : ℂ) * hodo w (F + q.argp)‖ ≤ 0.0081 * S * (1 + 1.755 * q.e) := by
    rw [norm_mul, Complex.norm_real, Real.norm_eq_abs]
    refine mul_le_mul ?_ hn (norm_nonneg _) (by positivity)
    rw [abs_le]; constructor <;> norm_num at b3 b4 ⊢ <;> linarith only [b3, b4]
  refine (norm_add_le _ _).trans ((add_le_add ((norm_add_le _ _).trans (add_le_add u1 u2)) u3).trans ?_)
  have s3 : 0 ≤ S * q.e := by positivity
  norm_num
  nlinarith only [s3, hS]


/-- The mean elements of a deep-space orbit at the epoch: those printed, except for the inclination. -/
theorem carried_epoch (q : Orbit) (node day : ℝ) : carriedMean q node day 0 =
    { a := q.a, e := max q.e (1 / 10 ^ 6), ω := q.argp, Ω := node, L := q.anom + q.argp + node, i := (carriedMean q node day 0).i } := by
  have ha : (carriedMean q node day 0).a = q.a := by unfold carriedMean; ring
  have he : (carriedMean q node day 0).e = max q.e (1 / 10 ^ 6) := by unfold carriedMean eccentricityRaw; simp only [mul_zero, add_zero, sub_zero]
  have hw : (carriedMean q node day 0).ω = q.argp := by unfold carriedMean Orbit.ωDF; ring
  have hΩ : (carriedMean q node day 0).Ω = node := by unfold carriedMean Orbit.Ω; ring
  have hL : (carriedMean q node day 0).L = q.anom + q.argp + node := by unfold carriedMean Orbit.MDF Orbit.ωDF Orbit.Ω; ring
  generalize carriedMean q node day 0 = m at ha he hw hΩ hL ⊢
  cases m
  dsimp only at ha he hw hΩ hL ⊢
  rw [ha, he, hw, hΩ, hL]

variable [Libm]

/-- **C112**, deep space: at the epoch, position and velocity reported for a deep-space satellite are the classical ones for the printed elements, up
to `0.034 + 0.07 e` of the semi-major axis and `0.05 + 0.179 e` of the circular speed in each component. -/
theorem C112_deep_epoch_f64 (hL : Libm.Faithful) (l1 l2 : Str) (v : Tle) (h : Printed l1 l2 v) (hpos : v.nddotNeg = false ∨ v.nddotMant = 0)
    (hnd : Normal v.nddotMant) (hb : Normal v.bstarMant) (hl : HighTle v) (t : F64) (ht : t.Fin) (ht0 : t.val = 0) :
    ∃ (s : Satrec F64) (p : SGP4Result F64) (A E : ℝ), twoline2satrec l1 l2 = .ok s ∧ (sgp4 s t).map Prod.snd = some (.ok p) ∧
      0 < A ∧ A ^ 3 * ((v.noE8 : ℝ) / 10 ^ 8 * (2 * Real.pi) / 86400) ^ 2 = 398600.5 ∧
      E - (v.eccE7 : ℝ) / 10 ^ 7 * Real.sin E = (v.moE4 : ℝ) / 10 ^ 4 * (Real.pi / 180) ∧
      let n := (v.noE8 : ℝ) / 10 ^ 8 * (2 * Real.pi) / 86400
      let X := ellipsePosition A ((v.eccE7 : ℝ) / 10 ^ 7) ((v.inclE4 : ℝ) / 10 ^ 4 * (Real.pi / 180)) ((v.nodeE4 : ℝ) / 10 ^ 4 * (Real.pi / 180))
        ((v.argpE4 : ℝ) / 10 ^ 4 * (Real.pi / 180)) E
      let V := ellipseVelocity A n ((v.eccE7 : ℝ) / 10 ^ 7) ((v.inclE4 : ℝ) / 10 ^ 4 * (Real.pi / 180)) ((v.nodeE4 : ℝ) / 10 ^ 4 * (Real.pi / 180))
        ((v.argpE4 : ℝ) / 10 ^ 4 * (Real.pi / 180)) E
      let ε := (0.034 + 0.07 * ((v.eccE7 : ℝ) / 10 ^ 7)) * A
      let η := (0.05 + 0.179 * ((v.eccE7 : ℝ) / 10 ^ 7)) * (A * n)
      (|p.position.x.val - X.x| ≤ ε ∧ |p.position.y.val - X.y| ≤ ε ∧ |p.position.z.val - X.z| ≤ ε) ∧
      |p.velocity.x.val - V.x| ≤ η ∧ |p.velocity.y.val - V.y| ≤ η ∧ |p.velocity.z.val - V.z| ≤ η := by
  obtain ⟨s, p, jd, hs, -, hp, hj, κ, -, k2, k3, c1, c2, -, -, -, -, m1, m2, m3⟩ := deep_sized hL l1 l2 v h hpos hnd hb hl t ht (by rw [ht0]; norm_num)
  have hM := deep_motion hL h hpos hnd hb hl hj
  obtain ⟨x0, x1⟩ := hM.ecc (t := 0) (by norm_num)
  rw [ht0] at k2 k3 c1 c2 m1 m2 m3
  have hm := carried_epoch (tleOrbit v) (tleNode v) (jd - 2415020)
  set m := carriedMean (tleOrbit v) (tleNode v) (jd - 2415020) 0 with hmd
  have hinc0 : 0 ≤ (tleOrbit v).inc := by show 0 ≤ (v.inclE4 : ℝ) / 10 ^ 4 * (Real.pi / 180); positivity
  have hinc1 : (tleOrbit v).inc ≤ 2.793 := by
    show (v.inclE4 : ℝ) / 10 ^ 4 * (Real.pi / 180) ≤ _
    have h1 : (v.inclE4 : ℝ) ≤ 1600000 := by exact_mod_cast hl.incl
    have hp2 := Real.pi_lt_d4
    calc (v.inclE4 : ℝ) / 10 ^ 4 * (Real.pi / 180) ≤ 1600000 / 10 ^ 4 * (3.1416 / 180) := by gcongr
      _ ≤ _ := by norm_num
  obtain ⟨m3a, m3b⟩ := abs_le.mp m3
  have hfm : FarMean m := ⟨by norm_num at m1 ⊢; linarith only [m1], x0, x1,
    not_retrograde (by rw [abs_le]; constructor <;> norm_num at m3a m3b hinc1 ⊢ <;> linarith only [m3a, m3b, hinc0, hinc1])⟩
  have FA := hfm.fair
  have hq : 1.91 ≤ (tleOrbit v).a := hM.a
  obtain ⟨e0, e1'⟩ := hM.e
  have e1 : (tleOrbit v).e ≤ 0.43 := e1'.trans (by norm_num)
  have H : EpochMean (tleOrbit v) (tleNode v) m.i m := ⟨hm, FA, x0, x1.trans (by norm_num), by
      calc (1.001 : ℝ) ≤ 1.91 * 0.57 := by norm_num
        _ ≤ _ := mul_le_mul hfm.a (by norm_num at x1 ⊢; linarith only [x1]) (by norm_num) (le_trans (by norm_num) hfm.a),
    le_trans (by norm_num) hfm.p, e0, e1, hfm.i⟩
  obtain ⟨-, hker, -⟩ := C65_kepler_converges _ FA.ecc κ k2 k3
  obtain ⟨n1, n2, n3⟩ := tle_motion_deep hl
  have n4 := tle_motion_deep_upper hl
  have hqn : 0 < (tleOrbit v).n := lt_of_lt_of_le (by linarith only [n2]) n1
  have hcube : (tleOrbit v).a ^ 3 = (ke / (tleOrbit v).n) ^ 2 := axis_cubed hqn
  have ha0 : 0 < (tleOrbit v).a := lt_of_lt_of_le (by norm_num) hq
  obtain ⟨q1, q2⟩ := cube_bounds n2 hqn hcube (by norm_num at n1 ⊢; linarith only [n1, n2]) (by norm_num at n4 ⊢; linarith only [n4, n2])
  obtain ⟨A, hA, hA3⟩ := exists_axis n2
  obtain ⟨b1, b2⟩ := third_law ha0 n2 hA hA3 q1 q2
  obtain ⟨E, hE⟩ : ∃ E, E - (tleOrbit v).e * Real.sin E = (tleOrbit v).anom := by
    obtain ⟨E, hE⟩ := exists_root { a := 1, e := (tleOrbit v).e, ω := 0, Ω := 0, L := (tleOrbit v).anom, i := 0 }
    refine ⟨E, ?_⟩
    unfold Mean.kepler Mean.U Mean.ayN Mean.axN longAy longL at hE
    simp only [Real.sin_zero, Real.cos_zero, mul_zero, zero_div, zero_mul, add_zero, sub_zero, mul_one] at hE
    linarith only [hE]
  -- the circular speed
  have hsp : ke / Real.sqrt (tleOrbit v).a = (tleOrbit v).n * (tleOrbit v).a := by
    have hsa : 0 < Real.sqrt (tleOrbit v).a := Real.sqrt_pos.mpr ha0
    have s2 : Real.sqrt (tleOrbit v).a ^ 2 = (tleOrbit v).a := Real.sq_sqrt ha0.le
    rw [div_eq_iff hsa.ne', ← pow_left_inj₀ ke_pos.le (by positivity) (show 2 ≠ 0 by norm_num), mul_pow, s2]
    have : ke ^ 2 = (tleOrbit v).a ^ 3 * (tleOrbit v).n ^ 2 := by rw [hcube]; field_simp
    rw [this]; ring
  have hS : 0 < A * (tleMotion v / 60) := by positivity
  have hS1 : ke / Real.sqrt (tleOrbit v).a * (6378.137 / 60) = (tleOrbit v).n * ((tleOrbit v).a * 6378.137) / 60 := by rw [hsp]; ring
  have w1 : 0.9919 * (A * (tleMotion v / 60)) ≤ ke / Real.sqrt (tleOrbit v).a * (6378.137 / 60) := by
    rw [hS1]
    have : 0.996 * tleMotion v * (0.996 * A) ≤ (tleOrbit v).n * ((tleOrbit v).a * 6378.137) := mul_le_mul n1 b1 (by positivity) hqn.le
    have p0 : 0 < A * tleMotion v := by positivity
    norm_num at this ⊢; linarith only [this, p0]
  have w2 : ke / Real.sqrt (tleOrbit v).a * (6378.137 / 60) ≤ 1.0081 * (A * (tleMotion v / 60)) := by
    rw [hS1]
    have : (tleOrbit v).n * ((tleOrbit v).a * 6378.137) ≤ 1.0035 * tleMotion v * (1.0045 * A) := mul_le_mul n4 b2 (by positivity) (by positivity)
    have p0 : 0 < A * tleMotion v := by positivity
    norm_num at this ⊢; linarith only [this, p0]
  have hpp := deep_plane_epoch H A E hA b1 b2 hE hker
  have hpl := deep_plane_velocity H (A * (tleMotion v / 60)) E hS w1 w2 hE hker
  have hΩk := Ωk_near FA (m.newton κ)
  have mΩ : m.Ω = (v.nodeE4 : ℝ) / 10 ^ 4 * (Real.pi / 180) := by rw [hm]; rfl
  rw [mΩ] at hΩk
  have hik : |m.ik (m.newton κ) - (v.inclE4 : ℝ) / 10 ^ 4 * (Real.pi / 180)| ≤ 0.01831 := by
    have e : m.ik (m.newton κ) - (v.inclE4 : ℝ) / 10 ^ 4 * (Real.pi / 180) = (m.ik (m.newton κ) - m.i) + (m.i - (tleOrbit v).inc) := by
      rw [show (tleOrbit v).inc = (v.inclE4 : ℝ) / 10 ^ 4 * (Real.pi / 180) from rfl]; ring
    rw [e]
    exact (abs_add_le _ _).trans ((add_le_add (ik_near FA _) m3).trans (by norm_num))
  rw [place_position] at c1
  rw [place_velocity] at c2
  set Y := ((m.rk (m.newton κ) * kmPerRadius : ℝ) : ℂ) * dir (m.uk (m.newton κ)) with hY
  set Z := ((kmPerRadius / 60 : ℝ) : ℂ) * ((⟨m.rdotk (m.newton κ), m.rfdotk (m.newton κ)⟩ : ℂ) * dir (m.uk (m.newton κ))) with hZ
  set T := (A : ℂ) * ellipse (((tleOrbit v).e : ℂ) * dir (tleOrbit v).argp) (E + (tleOrbit v).argp) with hTd
  set W := ((A * (tleMotion v / 60) : ℝ) : ℂ) * hodo (((tleOrbit v).e : ℂ) * dir (tleOrbit v).argp) (E + (tleOrbit v).argp) with hWd
  have hcp := place_close (Z := Y) (W := T) hΩk hik
  rw [hTd, ← place_ellipse ⟨e0, lt_of_le_of_lt e1 (by norm_num)⟩, ← hTd] at hcp
  have hcl := place_close (Z := Z) (W := W) hΩk hik
  rw [hWd, ← place_hodo ⟨e0, e1⟩, ← hWd] at hcl
  obtain ⟨-, hnp⟩ := ellipse_classical ⟨e0, lt_of_le_of_lt e1 (by norm_num)⟩ (tleOrbit v).argp E
  obtain ⟨-, -, -, hn⟩ := hodo_classical (e := (tleOrbit v).e) ⟨e0, e1⟩ (tleOrbit v).argp E
  have hT : ‖T‖ ≤ A * (1 + (tleOrbit v).e) := by
    rw [hTd, norm_mul, Complex.norm_real, Real.norm_eq_abs, abs_of_pos hA]
    exact mul_le_mul_of_nonneg_left hnp hA.le
  have hW : ‖W‖ ≤ A * (tleMotion v / 60) * (1 + 1.755 * (tleOrbit v).e) := by
    rw [hWd, norm_mul, Complex.norm_real, Real.norm_eq_abs, abs_of_pos hS]
    exact mul_le_mul_of_nonneg_left hn hS.le
  have hAlo : 6000 ≤ A := by norm_num at b2 hq; linarith only [b2, hq]
  have hSlo : 0.2 ≤ A * (tleMotion v / 60) := by
    have h1 : (57300000 : ℝ) ≤ v.noE8 := by exact_mod_cast hl.mot_lo
    have hp := Real.pi_gt_three
    have h2 : 0.002 ≤ tleMotion v := by
      unfold tleMotion
      calc (0.002 : ℝ) ≤ 57300000 / 10 ^ 8 * (2 * 3) / 1440 := by norm_num
        _ ≤ _ := by gcongr
    calc (0.2 : ℝ) = 6000 * (0.002 / 60) := by norm_num
      _ ≤ _ := by gcongr
  have finp : ∀ {x y u : ℝ}, |x - y| ≤ 1 / 10 ^ 3 → |y - u| ≤ ‖Y - T‖ + ‖T‖ * (2 * 0.00082 + 0.01831) →
      |x - u| ≤ (0.034 + 0.07 * (tleOrbit v).e) * A := by
    intro x y u g1 g2
    have g3 := (abs_sub_le x y u).trans (add_le_add g1 g2)
    refine g3.trans ((add_le_add le_rfl (add_le_add hpp (mul_le_mul_of_nonneg_right hT (by norm_num)))).trans ?_)
    have s3 : 0 ≤ A * (tleOrbit v).e := mul_nonneg hA.le e0
    norm_num
    nlinarith only [s3, hAlo]
  have fin : ∀ {x y u : ℝ}, |x - y| ≤ 1 / 10 ^ 6 → |y - u| ≤ ‖Z - W‖ + ‖W‖ * (2 * 0.00082 + 0.01831) →
      |x - u| ≤ (0.05 + 0.179 * (tleOrbit v).e) * (A * (tleMotion v / 60)) := by
    intro x y u g1 g2
    have g3 := (abs_sub_le x y u).trans (add_le_add g1 g2)
    refine g3.trans ((add_le_add le_rfl (add_le_add hpl (mul_le_mul_of_nonneg_right hW (by norm_num)))).trans ?_)
    have s3 : 0 ≤ A * (tleMotion v / 60) * (tleOrbit v).e := mul_nonneg hS.le e0
    generalize A * (tleMotion v / 60) = S at *
    norm_num at hSlo ⊢
    nlinarith only [s3, hSlo]
  have en : tleMotion v / 60 = (v.noE8 : ℝ) / 10 ^ 8 * (2 * Real.pi) / 86400 := by unfold tleMotion; ring
  rw [en] at fin hcl hA3
  exact ⟨s, p, A, E, hs, hp, hA, hA3, hE, ⟨finp c1.1.2 hcp.1, finp c1.2.1.2 hcp.2.1, finp c1.2.2.2 hcp.2.2⟩,
    fin c2.1.2 hcl.1, fin c2.2.1.2 hcl.2.1, fin c2.2.2.2 hcl.2.2⟩

/-- A navigation satellite: at the epoch, each coordinate is within 930 km, and each component of the velocity within 0.21 km/s, of those on the
ellipse with the printed elements, whose semi-major axis is between 26500 and 26620 km. -/
theorem nav_epoch (hL : Libm.Faithful) (t : F64) (ht : t.Fin) (ht0 : t.val = 0) :
    ∃ (s : Satrec F64) (p : SGP4Result F64) (A E n : ℝ), twoline2satrec navLine1 navLine2 = .ok s ∧ (sgp4 s t).map Prod.snd = some (.ok p) ∧
      26500 ≤ A ∧ A ≤ 26620 ∧ n = 2.00563537 * (2 * Real.pi) / 86400 ∧
      E - ((106703 : ℕ) : ℝ) / 10 ^ 7 * Real.sin E = ((3250288 : ℕ) : ℝ) / 10 ^ 4 * (Real.pi / 180) ∧
      let X := ellipsePosition A (((106703 : ℕ) : ℝ) / 10 ^ 7) (((554416 : ℕ) : ℝ) / 10 ^ 4 * (Real.pi / 180)) (((2474627 : ℕ) : ℝ) / 10 ^ 4 * (Real.pi / 180))
        (((1305360 : ℕ) : ℝ) / 10 ^ 4 * (Real.pi / 180)) E
      let V := ellipseVelocity A n (((106703 : ℕ) : ℝ) / 10 ^ 7) (((554416 : ℕ) : ℝ) / 10 ^ 4 * (Real.pi / 180))
        (((2474627 : ℕ) : ℝ) / 10 ^ 4 * (Real.pi / 180)) (((1305360 : ℕ) : ℝ) / 10 ^ 4 * (Real.pi / 180)) E
      (|p.position.x.val - X.x| ≤ 930 ∧ |p.position.y.val - X.y| ≤ 930 ∧ |p.position.z.val - X.z| ≤ 930) ∧
      |p.velocity.x.val - V.x| ≤ 0.21 ∧ |p.velocity.y.val - V.y| ≤ 0.21 ∧ |p.velocity.z.val - V.z| ≤ 0.21 := by
  obtain ⟨s, p, A, E, h1, h2, hA, hA3, h4, ⟨x1, x2, x3⟩, v1, v2, v3⟩ := C112_deep_epoch_f64 hL _ _ _ nav_printed (Or.inl rfl) (Or.inl rfl)
    (Or.inr (by decide)) nav_high t ht ht0
  change A ^ 3 * ((200563537 : ℕ) / 10 ^ 8 * (2 * Real.pi) / 86400) ^ 2 = (398600.5 : ℝ) at hA3
  have hp0 := Real.pi_gt_d4
  have hp1 := Real.pi_lt_d4
  have A1 : 26500 ≤ A := by
    by_contra hcon
    have : A ^ 3 * ((200563537 : ℕ) / 10 ^ 8 * (2 * Real.pi) / 86400) ^ 2 ≤ 26500 ^ 3 * ((200563537 : ℕ) / 10 ^ 8 * (2 * 3.1416) / 86400) ^ 2 := by
      have := (not_le.mp hcon).le
      gcongr
    rw [hA3] at this
    norm_num at this
  have A2 : A ≤ 26620 := by
    by_contra hcon
    have : 26620 ^ 3 * ((200563537 : ℕ) / 10 ^ 8 * (2 * 3.1415) / 86400) ^ 2 ≤ A ^ 3 * ((200563537 : ℕ) / 10 ^ 8 * (2 * Real.pi) / 86400) ^ 2 := by
      have := (not_le.mp hcon).le
      gcongr
    rw [hA3] at this
    norm_num at this
  have hε : (0.034 + 0.07 * (((106703 : ℕ) : ℝ) / 10 ^ 7)) * A ≤ 930 := by norm_num; linarith only [A2]
  have hη : (0.05 + 0.179 * (((106703 : ℕ) : ℝ) / 10 ^ 7)) * (A * (((200563537 : ℕ) : ℝ) / 10 ^ 8 * (2 * Real.pi) / 86400)) ≤ 0.21 := by
    calc _ ≤ (0.05 + 0.179 * (((106703 : ℕ) : ℝ) / 10 ^ 7)) * (26620 * (((200563537 : ℕ) : ℝ) / 10 ^ 8 * (2 * 3.1416) / 86400)) := by gcongr
      _ ≤ _ := by norm_num
  exact ⟨s, p, A, E, _, h1, h2, A1, A2, by rw [show navTle.noE8 = 200563537 from rfl]; norm_num, h4, ⟨x1.trans hε, x2.trans hε, x3.trans hε⟩, v1.trans hη, v2.trans hη, v3.trans hη⟩

end Sat
