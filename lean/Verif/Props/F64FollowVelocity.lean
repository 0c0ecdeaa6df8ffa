import Verif.Props.F64Follow
import Verif.Props.F64EpochVelocity
/-!
# C114, velocity: around the epoch the satellite moves with the velocity of the printed ellipse
-/

namespace Sat
open F64 hiding sub
open Spec Spec.R3 Spec.SDP Chain

/-- eccentricity vector and eccentric longitude of the theory for some mean elements against the classical ones for nearby elements -/
theorem vector_follow {m : Mean} (FA : Fair m) (g1 : 0 ≤ m.e) (g4 : 1 ≤ m.a * (1 - m.e ^ 2))
    (hinc : 1 / 100 ≤ 1 + Real.cos m.i) {e ω V F k du dz : ℝ} (e0 : 0 ≤ e) (e1 : e ≤ 0.43) (hF : F - e * Real.sin F = V - ω)
    (hk : |m.kepler k| ≤ 1.45e-12) (hu0 : |m.L - m.Ω - V| ≤ du) (hz0 : ‖(m.e : ℂ) * dir m.ω - (e : ℂ) * dir ω‖ ≤ dz) :
    ‖(⟨m.axN, m.ayN⟩ : ℂ) - (e : ℂ) * dir ω‖ ≤ 0.001171 + dz ∧ |k - (F + ω)| ≤ 0.0021 + 0.0355 * e + 1.755 * du + 1.79 * dz ∧
      ‖(⟨m.axN, m.ayN⟩ : ℂ)‖ ≤ 0.45 := by
  have hec := FA.ecc
  have hll := longL_abs hinc
  have hay := longAy_abs m.i
  have hz : ‖(⟨m.axN, m.ayN⟩ : ℂ)‖ ≤ 0.45 := by
    rw [Complex.norm_def]
    refine Real.sqrt_le_iff.mpr ⟨by norm_num, ?_⟩
    rw [Complex.normSq_mk]
    unfold Mean.eL2 at hec
    nlinarith only [hec]
  have hw : ‖(e : ℂ) * dir ω‖ = e := by rw [norm_mul, dir_norm, mul_one, Complex.norm_real, Real.norm_eq_abs, abs_of_nonneg e0]
  have hwm : ‖(m.e : ℂ) * dir m.ω‖ = m.e := by rw [norm_mul, dir_norm, mul_one, Complex.norm_real, Real.norm_eq_abs, abs_of_nonneg g1]
  have hme : m.e ≤ e + dz := by
    have := norm_le_norm_add_norm_sub' ((m.e : ℂ) * dir m.ω) ((e : ℂ) * dir ω)
    rw [hw, hwm] at this
    linarith only [this, hz0]
  have dz0 : 0 ≤ dz := (norm_nonneg _).trans hz0
  have du0 : 0 ≤ du := (abs_nonneg _).trans hu0
  have hp0 : 0 < m.a * (1 - m.e ^ 2) := lt_of_lt_of_le one_pos g4
  set z : ℂ := ⟨m.axN, m.ayN⟩ with hzd
  set w : ℂ := (e : ℂ) * dir ω with hwd
  have hzw : ‖z - w‖ ≤ 0.001171 + dz := by
    have e : z - w = ((longAy m.i / (m.a * (1 - m.e ^ 2)) : ℝ) : ℂ) * Complex.I + ((m.e : ℂ) * dir m.ω - w) := by
      rw [hzd]
      unfold Mean.axN Mean.ayN dir
      apply Complex.ext
      · simp only [Complex.sub_re, Complex.add_re, Complex.mul_re, Complex.ofReal_re, Complex.ofReal_im, Complex.I_re, Complex.I_im]; ring
      · simp only [Complex.sub_im, Complex.add_im, Complex.mul_im, Complex.ofReal_re, Complex.ofReal_im, Complex.I_re, Complex.I_im]; ring
    rw [e]
    refine (norm_add_le _ _).trans (add_le_add ?_ hz0)
    rw [norm_mul, Complex.norm_I, mul_one, Complex.norm_real, Real.norm_eq_abs]
    rw [abs_div, abs_of_pos hp0, div_le_iff₀ hp0]
    norm_num at hay ⊢; linarith only [hay, g4]
  have hUV : |m.U - V| ≤ du + 0.0202 * (e + dz) := by
    have e2 : m.U - V = (m.L - m.Ω - V) + longL m.i / (m.a * (1 - m.e ^ 2)) * m.axN := by unfold Mean.U; ring
    rw [e2]
    refine (abs_add_le _ _).trans (add_le_add hu0 ?_)
    rw [abs_mul]
    refine mul_le_mul ?_ ?_ (abs_nonneg _) (by norm_num)
    · rw [abs_div, abs_of_pos hp0, div_le_iff₀ hp0]
      norm_num at hll ⊢; linarith only [hll, g4]
    · unfold Mean.axN
      rw [abs_mul, abs_of_nonneg g1]
      exact (mul_le_of_le_one_right g1 (Real.abs_cos_le_one _)).trans hme
  have hE : k = m.U + esin z k - m.kepler k := by
    rw [hzd]; unfold esin Mean.kepler; ring
  have hs : esin w (F + ω) = e * Real.sin F := by
    rw [hwd]; unfold esin dir
    simp only [Complex.mul_re, Complex.mul_im, Complex.ofReal_re, Complex.ofReal_im, Real.sin_add, Real.cos_add]
    linear_combination e * Real.sin F * Real.sin_sq_add_cos_sq ω
  have hV : F + ω = V + esin w (F + ω) := by rw [hs]; linarith only [hF]
  have hEF := anomaly_close (e := e) hw.le hE hV
  have hδ : |k - (F + ω)| ≤ 0.0021 + 0.0355 * e + 1.755 * du + 1.79 * dz := by
    have : 0.57 * |k - (F + ω)| ≤ (1 - e) * |k - (F + ω)| := mul_le_mul_of_nonneg_right (by norm_num at e1 ⊢; linarith only [e1]) (abs_nonneg _)
    norm_num at this hEF hUV hzw hk ⊢; linarith only [this, hEF, hUV, hzw, hk, e0, du0, dz0]
  exact ⟨hzw, hδ, hz⟩

theorem velocity_follow {m : Mean} (FA : Fair m) (g1 : 0 ≤ m.e) (g2 : m.e ≤ 0.44) (g3 : 1.001 ≤ m.a * (1 - m.e)) (g4 : 1 ≤ m.a * (1 - m.e ^ 2))
    (hinc : 1 / 100 ≤ 1 + Real.cos m.i) {e ω V S F k du dz : ℝ} (e0 : 0 ≤ e) (e1 : e ≤ 0.43) (hS : 0 < S)
    (b1 : 0.9905 * S ≤ ke / Real.sqrt m.a * (6378.137 / 60)) (b2 : ke / Real.sqrt m.a * (6378.137 / 60) ≤ 1.0095 * S)
    (hF : F - e * Real.sin F = V - ω) (hk : |m.kepler k| ≤ 1.45e-12)
    (hu0 : |m.L - m.Ω - V| ≤ du) (hz0 : ‖(m.e : ℂ) * dir m.ω - (e : ℂ) * dir ω‖ ≤ dz) :
    ‖((kmPerRadius / 60 : ℝ) : ℂ) * ((⟨m.rdotk k, m.rfdotk k⟩ : ℂ) * dir (m.uk k)) - (S : ℂ) * hodo ((e : ℂ) * dir ω) (F + ω)‖ ≤
      (0.0295 + 0.144 * e + 6.22 * du + 14.43 * dz) * S := by
  obtain ⟨v1, v2, v3⟩ := vector_follow FA g1 g4 hinc e0 e1 hF hk hu0 hz0
  have hu := uk_near FA k
  have dz0 : 0 ≤ dz := (norm_nonneg _).trans hz0
  have du0 : 0 ≤ du := (abs_nonneg _).trans hu0
  obtain ⟨p1, p2, p3, -, p5, -, -, p8, p9⟩ := perturbation_bounds m k ⟨g1, g2.trans (by norm_num)⟩ (le_trans (by norm_num) g3)
  have hw : ‖(e : ℂ) * dir ω‖ = e := by rw [norm_mul, dir_norm, mul_one, Complex.norm_real, Real.norm_eq_abs, abs_of_nonneg e0]
  have ha0 : 0 < m.a := lt_of_lt_of_le one_pos p1
  have hH := hodo_mean m k ha0 (lt_of_lt_of_le (by norm_num) p3) p5
  obtain ⟨-, hD, -, hn⟩ := hodo_classical (e := e) ⟨e0, e1⟩ ω F
  have hcl := hodo_close (E := k) v3 (hw.le.trans e1) hD
  set z : ℂ := ⟨m.axN, m.ayN⟩ with hzd
  set w : ℂ := (e : ℂ) * dir ω with hwd
  obtain ⟨X, hX⟩ : ∃ X, X = 6.15 * du + 14.27 * dz := ⟨_, rfl⟩
  have X0 : 0 ≤ X := by rw [hX]; positivity
  have hcl2 : ‖hodo z k - hodo w (F + ω)‖ ≤ 0.01673 + 0.12426 * e + X := by
    rw [hX]; norm_num at hcl v1 v2 ⊢; linarith only [hcl, v1, v2, e0, du0, dz0]
  -- short-period terms
  set N := ke / Real.sqrt m.a with hN
  have N0 : 0 < N := div_pos ke_pos (Real.sqrt_pos.mpr ha0)
  have hmn : m.n ≤ N := by
    unfold Mean.n
    rw [hN]
    refine div_le_div_of_nonneg_left ke_pos.le (Real.sqrt_pos.mpr ha0) ?_
    rw [Real.sqrt_eq_rpow]
    exact Real.rpow_le_rpow_of_exponent_le p1 (by norm_num)
  have hmn0 : 0 < m.n := div_pos ke_pos (Real.rpow_pos_of_pos ha0 _)
  have hsm : R3.k2 * m.n / m.pL ≤ 0.000543 * N := by
    rw [div_le_iff₀ (lt_of_lt_of_le (by norm_num) p2)]
    have h1 : R3.k2 ≤ 0.00054132 := by unfold R3.k2 R3.j2; norm_num
    calc R3.k2 * m.n ≤ 0.00054132 * N := mul_le_mul h1 hmn hmn0.le (by norm_num)
      _ ≤ 0.000543 * N * 0.998 := by norm_num; linarith only [N0]
      _ ≤ _ := mul_le_mul_of_nonneg_left p2 (by positivity)
  have hHn : ‖hodo z k‖ ≤ 1.017 + 1.88 * e + X := by
    have := norm_le_norm_add_norm_sub' (hodo z k) (hodo w (F + ω))
    norm_num at this hn hcl2 ⊢; linarith only [this, hn, hcl2, e0, X0]
  have hV : ‖(⟨m.rdot k, m.rfdot k⟩ : ℂ)‖ ≤ N * (1.017 + 1.88 * e + X) := by
    have : ‖(⟨m.rdot k, m.rfdot k⟩ : ℂ) * dir (m.u k)‖ = ‖(⟨m.rdot k, m.rfdot k⟩ : ℂ)‖ := by rw [norm_mul, dir_norm, mul_one]
    rw [← this, hH, norm_mul, Complex.norm_real, Real.norm_eq_abs, abs_of_pos N0]
    exact mul_le_mul_of_nonneg_left hHn N0.le
  have t1 : ‖(⟨m.rdotk k, m.rfdotk k⟩ : ℂ) * dir (m.uk k) - (⟨m.rdot k, m.rfdot k⟩ : ℂ) * dir (m.u k)‖ ≤ N * (0.003006 + 0.001542 * e + 0.00082 * X) := by
    have e3 : (⟨m.rdotk k, m.rfdotk k⟩ : ℂ) * dir (m.uk k) - (⟨m.rdot k, m.rfdot k⟩ : ℂ) * dir (m.u k) =
        (⟨m.rdotk k - m.rdot k, m.rfdotk k - m.rfdot k⟩ : ℂ) * dir (m.uk k) + (⟨m.rdot k, m.rfdot k⟩ : ℂ) * (dir (m.uk k) - dir (m.u k)) := by
      have : (⟨m.rdotk k - m.rdot k, m.rfdotk k - m.rfdot k⟩ : ℂ) = (⟨m.rdotk k, m.rfdotk k⟩ : ℂ) - ⟨m.rdot k, m.rfdot k⟩ := rfl
      rw [this]; ring
    rw [e3]
    refine (norm_add_le _ _).trans ?_
    rw [norm_mul, norm_mul, dir_norm, mul_one]
    have n1 := Complex.norm_le_abs_re_add_abs_im (⟨m.rdotk k - m.rdot k, m.rfdotk k - m.rfdot k⟩ : ℂ)
    have n2 : ‖(⟨m.rdot k, m.rfdot k⟩ : ℂ)‖ * ‖dir (m.uk k) - dir (m.u k)‖ ≤ N * (1.017 + 1.88 * e + X) * 0.00082 :=
      mul_le_mul hV ((dir_sub_le _ _).trans hu) (norm_nonneg _) (by positivity)
    refine (add_le_add (n1.trans (add_le_add p8 p9)) n2).trans ?_
    have s3 : 0 ≤ N * e := by positivity
    have s4 : 0 ≤ N * X := by positivity
    norm_num at hsm ⊢; linarith only [hsm, s3, s4, N0]
  -- the scale
  set B := N * (6378.137 / 60) with hB
  have b3 : 0.9905 * S ≤ B := by rw [hB, hN]; exact b1
  have b4 : B ≤ 1.0095 * S := by rw [hB, hN]; exact b2
  have hB0 : 0 < B := lt_of_lt_of_le (by positivity) b3
  have e3 : ((kmPerRadius / 60 : ℝ) : ℂ) * ((⟨m.rdotk k, m.rfdotk k⟩ : ℂ) * dir (m.uk k)) - (S : ℂ) * hodo w (F + ω) =
      ((kmPerRadius / 60 : ℝ) : ℂ) * ((⟨m.rdotk k, m.rfdotk k⟩ : ℂ) * dir (m.uk k) - (⟨m.rdot k, m.rfdot k⟩ : ℂ) * dir (m.u k)) +
        (B : ℂ) * (hodo z k - hodo w (F + ω)) + ((B - S : ℝ) : ℂ) * hodo w (F + ω) := by
    rw [hH, hB, show (kmPerRadius : ℝ) = 6378.137 from rfl]; push_cast; ring
  rw [e3]
  have u1 : ‖((kmPerRadius / 60 : ℝ) : ℂ) * ((⟨m.rdotk k, m.rfdotk k⟩ : ℂ) * dir (m.uk k) - (⟨m.rdot k, m.rfdot k⟩ : ℂ) * dir (m.u k))‖ ≤
      1.0095 * S * (0.003006 + 0.001542 * e + 0.00082 * X) := by
    rw [norm_mul, Complex.norm_real, Real.norm_eq_abs, show (kmPerRadius : ℝ) = 6378.137 from rfl, abs_of_pos (by norm_num)]
    calc _ ≤ 6378.137 / 60 * (N * (0.003006 + 0.001542 * e + 0.00082 * X)) := mul_le_mul_of_nonneg_left t1 (by norm_num)
      _ = B * (0.003006 + 0.001542 * e + 0.00082 * X) := by rw [hB]; ring
      _ ≤ _ := mul_le_mul_of_nonneg_right b4 (by positivity)
  have u2 : ‖(B : ℂ) * (hodo z k - hodo w (F + ω))‖ ≤ 1.0095 * S * (0.01673 + 0.12426 * e + X) := by
    rw [norm_mul, Complex.norm_real, Real.norm_eq_abs, abs_of_pos hB0]
    exact mul_le_mul b4 hcl2 (norm_nonneg _) (by positivity)
  have u3 : ‖((B - S : ℝ) : ℂ) * hodo w (F + ω)‖ ≤ 0.0095 * S * (1 + 1.755 * e) := by
    rw [norm_mul, Complex.norm_real, Real.norm_eq_abs]
    refine mul_le_mul ?_ hn (norm_nonneg _) (by positivity)
    rw [abs_le]; constructor <;> norm_num at b3 b4 ⊢ <;> linarith only [b3, b4]
  refine (norm_add_le _ _).trans ((add_le_add ((norm_add_le _ _).trans (add_le_add u1 u2)) u3).trans ?_)
  have s3 : 0 ≤ S * e := by positivity
  have s4 : 0 ≤ S * du := by positivity
  have s5 : 0 ≤ S * dz := by positivity
  rw [hX]
  norm_num
  nlinarith only [s3, s4, s5, hS]

variable [Libm]

/-- **C114**, velocity: the same of the velocity, up to `0.043 + 0.148 e + 0.084 φ` of the circular speed. -/
theorem C114_follow_velocity_f64 (hL : Libm.Faithful) (l1 l2 : Str) (v : Tle) (h : Printed l1 l2 v) (hpos : v.nddotNeg = false ∨ v.nddotMant = 0)
    (hnd : Normal v.nddotMant) (hb : Normal v.bstarMant) (t : F64) (ht : t.Fin) (hl : LowTle v t.val) :
    ∃ (s : Satrec F64) (p : SGP4Result F64) (A E : ℝ), twoline2satrec l1 l2 = .ok s ∧ (sgp4 s t).map Prod.snd = some (.ok p) ∧
      0 < A ∧ A ^ 3 * ((v.noE8 : ℝ) / 10 ^ 8 * (2 * Real.pi) / 86400) ^ 2 = 398600.5 ∧
      E - (v.eccE7 : ℝ) / 10 ^ 7 * Real.sin E = (v.moE4 : ℝ) / 10 ^ 4 * (Real.pi / 180) + (v.noE8 : ℝ) / 10 ^ 8 * (2 * Real.pi) / 1440 * t.val ∧
      let n := (v.noE8 : ℝ) / 10 ^ 8 * (2 * Real.pi) / 86400
      let V := ellipseVelocity A n ((v.eccE7 : ℝ) / 10 ^ 7) ((v.inclE4 : ℝ) / 10 ^ 4 * (Real.pi / 180)) ((v.nodeE4 : ℝ) / 10 ^ 4 * (Real.pi / 180))
        ((v.argpE4 : ℝ) / 10 ^ 4 * (Real.pi / 180)) E
      let φ := (v.noE8 : ℝ) / 10 ^ 8 * (2 * Real.pi) / 1440 * |t.val|
      let ε := (0.043 + 0.148 * ((v.eccE7 : ℝ) / 10 ^ 7) + 0.084 * φ) * (A * n)
      |p.velocity.x.val - V.x| ≤ ε ∧ |p.velocity.y.val - V.y| ≤ ε ∧ |p.velocity.z.val - V.z| ≤ ε := by
  obtain ⟨s, p, hs, hp, k, -, k2, k3, c1, c2⟩ := C85_text_to_state_f64 hL l1 l2 v h hpos hnd hb t ht hl
  have Q := quiet_low hL h hpos hnd hb hl
  obtain ⟨-, hker, -⟩ := C65_kepler_converges _ (Q.fair (tleNode v)).ecc k k2 k3
  obtain ⟨n1, n2, n3⟩ := tle_motion_lower hl
  have n4 := tle_motion_upper hl
  obtain ⟨f1, f2, f3⟩ := mean_follow Q (tleNode v) n2 n1 n4
  obtain ⟨_, _, _, _, _, D⟩ := Q.drift (tleNode v)
  obtain ⟨g1, g2, g3, g4, -⟩ := quiet_numbers Q (tleNode v)
  obtain ⟨e0, e1⟩ := Q.ecc
  have FA := Q.fair (tleNode v)
  have hinc : 1 / 100 ≤ 1 + Real.cos ((tleOrbit v).mean (tleNode v) t.val).i := Q.incl
  have mi : ((tleOrbit v).mean (tleNode v) t.val).i = (v.inclE4 : ℝ) / 10 ^ 4 * (Real.pi / 180) := rfl
  set m := (tleOrbit v).mean (tleNode v) t.val with hm
  have ha1 := FA.axis
  have ha0 : 0 < m.a := lt_of_lt_of_le one_pos ha1
  have hmn : 0 < m.n := by unfold Mean.n; exact div_pos ke_pos (Real.rpow_pos_of_pos ha0 _)
  have hcube : m.a ^ 3 = (ke / m.n) ^ 2 := by
    have hr : 0 < m.a ^ (3 / 2 : ℝ) := Real.rpow_pos_of_pos ha0 _
    have e : ke / m.n = m.a ^ (3 / 2 : ℝ) := by unfold Mean.n; have := ke_pos; field_simp
    rw [e, ← Real.rpow_natCast (m.a ^ (3 / 2 : ℝ)) 2, ← Real.rpow_mul ha0.le, ← Real.rpow_natCast m.a 3]
    norm_num
  have hv := abs_le.mp D.vn
  obtain ⟨q1, q2⟩ := cube_bounds n2 hmn hcube (by norm_num at hv n1 n4 ⊢; linarith only [hv, n1, n4]) (by norm_num at hv n1 n4 ⊢; linarith only [hv, n1, n4])
  obtain ⟨A, hA, hA3⟩ := exists_axis n2
  obtain ⟨b1, b2⟩ := third_law ha0 n2 hA hA3 q1 q2
  obtain ⟨E, hE⟩ : ∃ E, E - (tleOrbit v).e * Real.sin E = (tleOrbit v).anom + tleMotion v * t.val := by
    obtain ⟨E, hE⟩ := exists_root { a := 1, e := (tleOrbit v).e, ω := 0, Ω := 0, L := (tleOrbit v).anom + tleMotion v * t.val, i := 0 }
    refine ⟨E, ?_⟩
    unfold Mean.kepler Mean.U Mean.ayN Mean.axN longAy longL at hE
    simp only [Real.sin_zero, Real.cos_zero, mul_zero, zero_div, zero_mul, add_zero, sub_zero, mul_one] at hE
    linarith only [hE]
  -- the circular speed
  have hsp : ke / Real.sqrt m.a = m.n * m.a := by
    have hsa : 0 < Real.sqrt m.a := Real.sqrt_pos.mpr ha0
    have s2 : Real.sqrt m.a ^ 2 = m.a := Real.sq_sqrt ha0.le
    rw [div_eq_iff hsa.ne', ← pow_left_inj₀ ke_pos.le (by positivity) (show 2 ≠ 0 by norm_num), mul_pow, mul_pow, s2]
    have : ke ^ 2 = m.a ^ 3 * m.n ^ 2 := by rw [hcube]; field_simp
    rw [this]; ring
  have hS : 0 < A * (tleMotion v / 60) := by positivity
  have hS1 : ke / Real.sqrt m.a * (6378.137 / 60) = m.n * (m.a * 6378.137) / 60 := by rw [hsp]; ring
  have o1 : 0.9945 * tleMotion v ≤ m.n := by norm_num at hv n1 n4 ⊢; linarith only [hv, n1, n4]
  have o2 : m.n ≤ 1.00491 * tleMotion v := by norm_num at hv n1 n4 ⊢; linarith only [hv, n1, n4]
  have w1 : 0.9905 * (A * (tleMotion v / 60)) ≤ ke / Real.sqrt m.a * (6378.137 / 60) := by
    rw [hS1]
    have : 0.9945 * tleMotion v * (0.996 * A) ≤ m.n * (m.a * 6378.137) := mul_le_mul o1 b1 (by positivity) hmn.le
    have p0 : 0 < A * tleMotion v := by positivity
    norm_num at this ⊢; linarith only [this, p0]
  have w2 : ke / Real.sqrt m.a * (6378.137 / 60) ≤ 1.0095 * (A * (tleMotion v / 60)) := by
    rw [hS1]
    have : m.n * (m.a * 6378.137) ≤ 1.00491 * tleMotion v * (1.0045 * A) := mul_le_mul o2 b2 (by positivity) (by positivity)
    have p0 : 0 < A * tleMotion v := by positivity
    norm_num at this ⊢; linarith only [this, p0]
  have hpl := velocity_follow FA g1 g2 g3 g4 hinc e0 e1 hS w1 w2 (F := E) (ω := (tleOrbit v).argp) (by rw [hE]; ring) hker f1 f2
  have hik := ik_near FA (m.newton k)
  have hΩk := (abs_sub_le _ _ _).trans (add_le_add (Ωk_near FA (m.newton k)) f3)
  rw [mi] at hik
  rw [place_velocity] at c2
  set Z := ((kmPerRadius / 60 : ℝ) : ℂ) * ((⟨m.rdotk (m.newton k), m.rfdotk (m.newton k)⟩ : ℂ) * dir (m.uk (m.newton k))) with hZ
  set W := ((A * (tleMotion v / 60) : ℝ) : ℂ) * hodo (((tleOrbit v).e : ℂ) * dir (tleOrbit v).argp) (E + (tleOrbit v).argp) with hWd
  have hcl := place_close (Z := Z) (W := W) hΩk hik
  rw [hWd, ← place_hodo ⟨e0, e1⟩, ← hWd] at hcl
  obtain ⟨-, -, -, hn⟩ := hodo_classical (e := (tleOrbit v).e) ⟨e0, e1⟩ (tleOrbit v).argp E
  have hW : ‖W‖ ≤ A * (tleMotion v / 60) * (1 + 1.755 * (tleOrbit v).e) := by
    rw [hWd, norm_mul, Complex.norm_real, Real.norm_eq_abs, abs_of_pos hS]
    exact mul_le_mul_of_nonneg_left hn hS.le
  have hAlo : 6000 ≤ A := by norm_num at b2; linarith only [b2, ha1]
  have hSlo : 2 ≤ A * (tleMotion v / 60) := by
    have h1 : (645000000 : ℝ) ≤ v.noE8 := by exact_mod_cast hl.mot_lo
    have hp := Real.pi_gt_three
    have h2 : 0.02 ≤ tleMotion v := by
      unfold tleMotion
      calc (0.02 : ℝ) ≤ 645000000 / 10 ^ 8 * (2 * 3) / 1440 := by norm_num
        _ ≤ _ := by gcongr
    calc (2 : ℝ) = 6000 * (0.02 / 60) := by norm_num
      _ ≤ _ := by gcongr
  have hφ0 : 0 ≤ tleMotion v * |t.val| := by positivity
  have eφ : (v.noE8 : ℝ) / 10 ^ 8 * (2 * Real.pi) / 1440 * |t.val| = tleMotion v * |t.val| := by unfold tleMotion; ring
  have fin : ∀ {x y u : ℝ}, |x - y| ≤ 2 / 10 ^ 6 → |y - u| ≤ ‖Z - W‖ + ‖W‖ * (2 * (0.00082 + 0.00167 * (tleMotion v * |t.val|)) + 0.00041) →
      |x - u| ≤ (0.043 + 0.148 * (tleOrbit v).e + 0.084 * ((v.noE8 : ℝ) / 10 ^ 8 * (2 * Real.pi) / 1440 * |t.val|)) * (A * (tleMotion v / 60)) := by
    intro x y u g1 g2
    rw [eφ]
    have g3 := (abs_sub_le x y u).trans (add_le_add g1 g2)
    generalize tleMotion v * |t.val| = φ at g3 hφ0 hpl ⊢
    refine g3.trans ((add_le_add le_rfl (add_le_add hpl (mul_le_mul_of_nonneg_right hW (by positivity)))).trans ?_)
    generalize A * (tleMotion v / 60) = S at hS hSlo ⊢
    have s3 : 0 ≤ S * (tleOrbit v).e := mul_nonneg hS.le e0
    have s4 : 0 ≤ S * φ := mul_nonneg hS.le hφ0
    have s5 : S * φ * (tleOrbit v).e ≤ S * φ * 0.43 := mul_le_mul_of_nonneg_left e1 s4
    norm_num at s5 ⊢
    nlinarith only [s3, s4, s5, hSlo]
  have en : tleMotion v / 60 = (v.noE8 : ℝ) / 10 ^ 8 * (2 * Real.pi) / 86400 := by unfold tleMotion; ring
  rw [en] at fin hcl hA3
  refine ⟨s, p, A, E, hs, hp, hA, hA3, ?_, fin c2.1.2 hcl.1, fin c2.2.1.2 hcl.2.1, fin c2.2.2.2 hcl.2.2⟩
  refine hE.trans ?_
  change (v.moE4 : ℝ) / 10 ^ 4 * (Real.pi / 180) + _ = _
  unfold tleMotion; ring

/-- The International Space Station: in the five minutes before and after the epoch each component of the velocity is within 0.6 km/s of that on the
ellipse with the printed elements.  (In each of these the velocity, 7.7 km/s, turns by 20 degrees.) -/
theorem iss_follow_velocity (hL : Libm.Faithful) (t : F64) (ht : t.Fin) (h : |t.val| ≤ 5) :
    ∃ (s : Satrec F64) (p : SGP4Result F64) (A E n : ℝ),
      twoline2satrec "1 25544U 98067A   08264.51782528 -.00002182  00000-0 -11606-4 0  2927".toList
        "2 25544  51.6416 247.4627 0006703 130.5360 325.0288 15.72125391563537".toList = .ok s ∧ (sgp4 s t).map Prod.snd = some (.ok p) ∧
      6700 ≤ A ∧ A ≤ 6750 ∧ n = 15.72125391 * (2 * Real.pi) / 86400 ∧
      E - ((6703 : ℕ) : ℝ) / 10 ^ 7 * Real.sin E = ((3250288 : ℕ) : ℝ) / 10 ^ 4 * (Real.pi / 180) + ((1572125391 : ℕ) : ℝ) / 10 ^ 8 * (2 * Real.pi) / 1440 * t.val ∧
      let V := ellipseVelocity A n (((6703 : ℕ) : ℝ) / 10 ^ 7) (((516416 : ℕ) : ℝ) / 10 ^ 4 * (Real.pi / 180)) (((2474627 : ℕ) : ℝ) / 10 ^ 4 * (Real.pi / 180))
        (((1305360 : ℕ) : ℝ) / 10 ^ 4 * (Real.pi / 180)) E
      |p.velocity.x.val - V.x| ≤ 0.6 ∧ |p.velocity.y.val - V.y| ≤ 0.6 ∧ |p.velocity.z.val - V.z| ≤ 0.6 := by
  obtain ⟨s, p, A, E, h1, h2, hA, hA3, h4, h5, h6, h7⟩ := C114_follow_velocity_f64 hL _ _ _ iss_printed (Or.inl rfl) (Or.inl rfl) (Or.inr (by decide)) t ht
    (iss_low (h.trans (by norm_num)))
  change A ^ 3 * ((1572125391 : ℕ) / 10 ^ 8 * (2 * Real.pi) / 86400) ^ 2 = (398600.5 : ℝ) at hA3
  obtain ⟨A1, A2⟩ := iss_axis hA hA3
  have hε : (0.043 + 0.148 * (((6703 : ℕ) : ℝ) / 10 ^ 7) + 0.084 * (((1572125391 : ℕ) : ℝ) / 10 ^ 8 * (2 * Real.pi) / 1440 * |t.val|)) *
      (A * (((1572125391 : ℕ) : ℝ) / 10 ^ 8 * (2 * Real.pi) / 86400)) ≤ 0.6 := by
    have hp := Real.pi_lt_d4
    have hpp := Real.pi_pos
    calc _ ≤ (0.043 + 0.148 * (((6703 : ℕ) : ℝ) / 10 ^ 7) + 0.084 * (((1572125391 : ℕ) : ℝ) / 10 ^ 8 * (2 * 3.1416) / 1440 * 5)) *
          (6750 * (((1572125391 : ℕ) : ℝ) / 10 ^ 8 * (2 * 3.1416) / 86400)) := by gcongr
      _ ≤ _ := by norm_num
  exact ⟨s, p, A, E, _, h1, h2, A1, A2, by norm_num, h4, h5.trans hε, h6.trans hε, h7.trans hε⟩

end Sat
