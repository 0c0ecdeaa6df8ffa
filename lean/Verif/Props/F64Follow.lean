import Verif.Props.F64Epoch
/-!
# C114: around the epoch the satellite follows the printed ellipse

Position `t` minutes after (or before) the epoch, against undisturbed elliptic motion with the printed elements.
-/

namespace Sat
open F64 hiding sub
open Spec Spec.R3 Spec.SDP Chain

/-- the plane position of the theory for some mean elements against the classical one for nearby elements -/
theorem plane_follow {m : Mean} (FA : Fair m) (g1 : 0 ≤ m.e) (g2 : m.e ≤ 0.44) (g3 : 1.001 ≤ m.a * (1 - m.e)) (g4 : 1 ≤ m.a * (1 - m.e ^ 2))
    (hinc : 1 / 100 ≤ 1 + Real.cos m.i) {e ω V A F k du dz : ℝ} (e0 : 0 ≤ e) (e1 : e ≤ 0.43) (hA : 0 < A) (b1 : 0.996 * A ≤ m.a * 6378.137)
    (b2 : m.a * 6378.137 ≤ 1.0045 * A) (hF : F - e * Real.sin F = V - ω) (hk : |m.kepler k| ≤ 1.45e-12)
    (hu0 : |m.L - m.Ω - V| ≤ du) (hz0 : ‖(m.e : ℂ) * dir m.ω - (e : ℂ) * dir ω‖ ≤ dz) :
    ‖((m.rk k * kmPerRadius : ℝ) : ℂ) * dir (m.uk k) - (A : ℂ) * ellipse ((e : ℂ) * dir ω) (F + ω)‖ ≤
      (0.0118 + 0.0484 * e + 2.03 * du + 3.68 * dz) * A := by
  have hu := uk_near FA k
  obtain ⟨p1, p2, p3, -, p5, -, p7, -, -⟩ := perturbation_bounds m k ⟨g1, g2.trans (by norm_num)⟩ (le_trans (by norm_num) g3)
  have hr0 : m.r k ≠ 0 := by norm_num at p3; intro h0; rw [h0] at p3; norm_num at p3
  have hEl := ellipse_mean m k hr0 p5
  have hec := FA.ecc
  have hll := longL_abs hinc
  have hay := longAy_abs m.i
  have hz : ‖(⟨m.axN, m.ayN⟩ : ℂ)‖ ≤ 0.45 := by
    rw [Complex.norm_def]
    refine Real.sqrt_le_iff.mpr ⟨by norm_num, ?_⟩
    rw [Complex.normSq_mk]
    unfold Mean.eL2 at hec
    nlinarith only [hec]
  have hw : ‖(e : ℂ) * dir ω‖ = e := by rw [norm_mul, dir_norm, mul_one, Complex.norm_real, Real.norm_eq_abs, abs_of_nonneg e0]
  have hwm : ‖(m.e : ℂ) * dir m.ω‖ = m.e := by rw [norm_mul, dir_norm, mul_one, Complex.norm_real, Real.norm_eq_abs, abs_of_nonneg g1]
  have hme : m.e ≤ e + dz := by
    have := norm_le_norm_add_norm_sub' ((m.e : ℂ) * dir m.ω) ((e : ℂ) * dir ω)
    rw [hw, hwm] at this
    linarith only [this, hz0]
  have dz0 : 0 ≤ dz := (norm_nonneg _).trans hz0
  have du0 : 0 ≤ du := (abs_nonneg _).trans hu0
  have hp0 : 0 < m.a * (1 - m.e ^ 2) := lt_of_lt_of_le one_pos g4
  set z : ℂ := ⟨m.axN, m.ayN⟩ with hzd
  set w : ℂ := (e : ℂ) * dir ω with hwd
  have hzw : ‖z - w‖ ≤ 0.001171 + dz := by
    have e : z - w = ((longAy m.i / (m.a * (1 - m.e ^ 2)) : ℝ) : ℂ) * Complex.I + ((m.e : ℂ) * dir m.ω - w) := by
      rw [hzd]
      unfold Mean.axN Mean.ayN dir
      apply Complex.ext
      · simp only [Complex.sub_re, Complex.add_re, Complex.mul_re, Complex.ofReal_re, Complex.ofReal_im, Complex.I_re, Complex.I_im]; ring
      · simp only [Complex.sub_im, Complex.add_im, Complex.mul_im, Complex.ofReal_re, Complex.ofReal_im, Complex.I_re, Complex.I_im]; ring
    rw [e]
    refine (norm_add_le _ _).trans (add_le_add ?_ hz0)
    rw [norm_mul, Complex.norm_I, mul_one, Complex.norm_real, Real.norm_eq_abs]
    rw [abs_div, abs_of_pos hp0, div_le_iff₀ hp0]
    norm_num at hay ⊢; linarith only [hay, g4]
  have hUV : |m.U - V| ≤ du + 0.0202 * (e + dz) := by
    have e2 : m.U - V = (m.L - m.Ω - V) + longL m.i / (m.a * (1 - m.e ^ 2)) * m.axN := by unfold Mean.U; ring
    rw [e2]
    refine (abs_add_le _ _).trans (add_le_add hu0 ?_)
    rw [abs_mul]
    refine mul_le_mul ?_ ?_ (abs_nonneg _) (by norm_num)
    · rw [abs_div, abs_of_pos hp0, div_le_iff₀ hp0]
      norm_num at hll ⊢; linarith only [hll, g4]
    · unfold Mean.axN
      rw [abs_mul, abs_of_nonneg g1]
      exact (mul_le_of_le_one_right g1 (Real.abs_cos_le_one _)).trans hme
  have hE : k = m.U + esin z k - m.kepler k := by
    rw [hzd]; unfold esin Mean.kepler; ring
  have hs : esin w (F + ω) = e * Real.sin F := by
    rw [hwd]; unfold esin dir
    simp only [Complex.mul_re, Complex.mul_im, Complex.ofReal_re, Complex.ofReal_im, Real.sin_add, Real.cos_add]
    linear_combination e * Real.sin F * Real.sin_sq_add_cos_sq ω
  have hV : F + ω = V + esin w (F + ω) := by rw [hs]; linarith only [hF]
  have hEF := anomaly_close (e := e) hw.le hE hV
  have hδ : |k - (F + ω)| ≤ 0.0021 + 0.0355 * e + 1.755 * du + 1.79 * dz := by
    have : 0.57 * |k - (F + ω)| ≤ (1 - e) * |k - (F + ω)| := mul_le_mul_of_nonneg_right (by norm_num at e1 ⊢; linarith only [e1]) (abs_nonneg _)
    norm_num at this hEF hUV hzw hk ⊢; linarith only [this, hEF, hUV, hzw, hk, e0, du0, dz0]
  have hcl := ellipse_close (z := z) (w := w) (E := k) (F := F + ω) hz (hw.le.trans (e1.trans (by norm_num)))
  have hcl2 : ‖ellipse z k - ellipse w (F + ω)‖ ≤ 0.0043 + 0.0409 * e + 2.0185 * du + 3.66 * dz := by
    norm_num at hcl hzw hδ ⊢; linarith only [hcl, hzw, hδ, e0, du0, dz0]
  obtain ⟨-, hn⟩ := ellipse_classical ⟨e0, lt_of_le_of_lt e1 (by norm_num)⟩ ω F
  have hr1 : m.r k ≤ m.a * (1.0013 + e + dz) := by
    unfold Mean.r
    refine mul_le_mul_of_nonneg_left ?_ (le_trans zero_le_one p1)
    have hzn : ‖z‖ ≤ e + 0.0012 + dz := by
      have := norm_le_norm_add_norm_sub' z w
      rw [hw] at this
      norm_num at hzw ⊢; linarith only [this, hzw]
    have hq : m.eL2 ≤ (e + 0.0012 + dz) ^ 2 := by
      have e : m.eL2 = ‖z‖ ^ 2 := by
        rw [← Complex.normSq_eq_norm_sq, hzd, Complex.normSq_mk]; unfold Mean.eL2; ring
      rw [e]; exact pow_le_pow_left₀ (norm_nonneg _) hzn 2
    have := (abs_le.mp (ecosE_le hq (by positivity) k)).1
    norm_num at this ⊢; linarith only [this]
  have hrp : 0 < m.r k := lt_of_lt_of_le (by norm_num) p3
  have hK : (kmPerRadius : ℝ) = 6378.137 := rfl
  set B := m.a * 6378.137 with hB
  have hB0 : 0 < B := lt_of_lt_of_le (by positivity) b1
  have t1 : ‖((m.rk k * kmPerRadius : ℝ) : ℂ) * dir (m.uk k) - ((m.r k * kmPerRadius : ℝ) : ℂ) * dir (m.u k)‖ ≤ 0.002734 * (B * (1.0013 + e + dz)) := by
    have e3 : ((m.rk k * kmPerRadius : ℝ) : ℂ) * dir (m.uk k) - ((m.r k * kmPerRadius : ℝ) : ℂ) * dir (m.u k) =
        (((m.rk k - m.r k) * kmPerRadius : ℝ) : ℂ) * dir (m.uk k) + ((m.r k * kmPerRadius : ℝ) : ℂ) * (dir (m.uk k) - dir (m.u k)) := by
      push_cast; ring
    rw [e3]
    have n1 := norm_add_le ((((m.rk k - m.r k) * kmPerRadius : ℝ) : ℂ) * dir (m.uk k)) (((m.r k * kmPerRadius : ℝ) : ℂ) * (dir (m.uk k) - dir (m.u k)))
    rw [norm_mul, norm_mul, dir_norm, mul_one, Complex.norm_real, Complex.norm_real, Real.norm_eq_abs, Real.norm_eq_abs, abs_mul, abs_mul,
      abs_of_pos hrp, hK, abs_of_pos (by norm_num : (0 : ℝ) < 6378.137)] at n1
    rw [hK]
    refine n1.trans ?_
    have n2 : m.r k * 6378.137 * ‖dir (m.uk k) - dir (m.u k)‖ ≤ m.r k * 6378.137 * 0.00082 :=
      mul_le_mul_of_nonneg_left ((dir_sub_le _ _).trans hu) (by positivity)
    have n3 : |m.rk k - m.r k| * 6378.137 ≤ 0.001914 * m.r k * 6378.137 := mul_le_mul_of_nonneg_right p7 (by norm_num)
    calc _ ≤ 0.001914 * m.r k * 6378.137 + m.r k * 6378.137 * 0.00082 := add_le_add n3 n2
      _ = 0.002734 * (m.r k * 6378.137) := by ring
      _ ≤ 0.002734 * (m.a * (1.0013 + e + dz) * 6378.137) := by gcongr
      _ = _ := by rw [hB]; ring
  have t2 : ‖((m.r k * kmPerRadius : ℝ) : ℂ) * dir (m.u k) - (A : ℂ) * ellipse w (F + ω)‖ ≤
      B * (0.0043 + 0.0409 * e + 2.0185 * du + 3.66 * dz) + 0.0045 * A * (1 + e) := by
    have e3 : ((m.r k * kmPerRadius : ℝ) : ℂ) * dir (m.u k) - (A : ℂ) * ellipse w (F + ω) =
        (B : ℂ) * (ellipse z k - ellipse w (F + ω)) + ((B - A : ℝ) : ℂ) * ellipse w (F + ω) := by
      have e2 : ((m.r k * kmPerRadius : ℝ) : ℂ) * dir (m.u k) = (kmPerRadius : ℂ) * ((m.r k : ℂ) * dir (m.u k)) := by push_cast; ring
      rw [e2, hEl, hK, hB]
      push_cast; ring
    rw [e3]
    refine (norm_add_le _ _).trans (add_le_add ?_ ?_)
    · rw [norm_mul, Complex.norm_real, Real.norm_eq_abs, abs_of_pos hB0]; exact mul_le_mul_of_nonneg_left hcl2 hB0.le
    · rw [norm_mul, Complex.norm_real, Real.norm_eq_abs]
      refine mul_le_mul ?_ hn (norm_nonneg _) (by positivity)
      rw [abs_le]; constructor <;> norm_num at b1 b2 ⊢ <;> linarith only [b1, b2, hA]
  have t3 := norm_sub_le_norm_sub_add_norm_sub (((m.rk k * kmPerRadius : ℝ) : ℂ) * dir (m.uk k)) (((m.r k * kmPerRadius : ℝ) : ℂ) * dir (m.u k))
    ((A : ℂ) * ellipse w (F + ω))
  refine t3.trans ((add_le_add t1 t2).trans ?_)
  have s1 : 0.002734 * (B * (1.0013 + e + dz)) ≤ 0.002734 * (1.0045 * A * (1.0013 + e + dz)) := by gcongr
  have s2 : B * (0.0043 + 0.0409 * e + 2.0185 * du + 3.66 * dz) ≤ 1.0045 * A * (0.0043 + 0.0409 * e + 2.0185 * du + 3.66 * dz) := by gcongr
  have s3 : 0 ≤ A * e := by positivity
  have s4 : 0 ≤ A * du := by positivity
  have s5 : 0 ≤ A * dz := by positivity
  norm_num at s1 s2 ⊢
  nlinarith only [s1, s2, s3, s4, s5, hA]

theorem increment_from_zero {f : ℝ → ℝ} {t C k : ℝ} (h : ∀ s, |s| ≤ |t| → ∃ f', HasDerivAt f f' s ∧ |f' - k| ≤ C) : |f t - f 0 - k * t| ≤ C * |t| := by
  rcases le_total 0 t with h0 | h0
  · have := increment (f := f) (t := 0) (d := t) (C := C) (k := k) h0 (fun s h1 h2 => h s (by
      rw [zero_add] at h2
      rw [abs_of_nonneg h1, abs_of_nonneg h0]; exact h2))
    rw [zero_add] at this
    rwa [abs_of_nonneg h0]
  · have := increment (f := f) (t := t) (d := -t) (C := C) (k := k) (by linarith only [h0]) (fun s h1 h2 => h s (by
      rw [add_neg_cancel] at h2
      rw [abs_of_nonpos h2, abs_of_nonpos h0]; linarith only [h1]))
    rw [add_neg_cancel] at this
    rw [abs_of_nonpos h0]
    rw [show f t - f 0 - k * t = -(f 0 - f t - k * -t) by ring, abs_neg]
    exact this

/-- the mean elements against undisturbed motion -/
theorem mean_follow {q : Orbit} {t N : ℝ} (Q : Quiet q t) (node : ℝ) (hN : 0 < N) (n1 : 0.996 * N ≤ q.n) (n2 : q.n ≤ 1.0035 * N) :
    |(q.mean node t).L - (q.mean node t).Ω - (q.anom + q.argp + N * t)| ≤ 0.0105 * (N * |t|) ∧
    ‖((q.mean node t).e : ℂ) * dir (q.mean node t).ω - (q.e : ℂ) * dir q.argp‖ ≤ 0.00076 + 0.00084 * (N * |t|) ∧
    |(q.mean node t).Ω - node| ≤ 0.00167 * (N * |t|) := by
  have Qs : ∀ s, |s| ≤ |t| → Quiet q s := fun s hs => { Q with
    time := le_trans (by
      rw [abs_mul, abs_mul]
      have : 0 ≤ lowness (q.a * (1 - q.e)) ^ 5 := by unfold lowness; positivity
      gcongr) Q.time }
  have hm := mean_epoch q node
  have L0 : q.L node 0 = q.anom + q.argp + node := congrArg Mean.L hm
  have Ω0 : q.Ω node 0 = node := congrArg Mean.Ω hm
  have w0 : q.ω 0 = q.argp := congrArg Mean.ω hm
  obtain ⟨e0, e1⟩ := Q.ecc
  refine ⟨?_, ?_, ?_⟩
  · have := increment_from_zero (f := fun s => q.L node s - q.Ω node s) (t := t) (C := 0.0105 * N) (k := N) (fun s hs => by
      obtain ⟨_, _, h', _, l', D⟩ := (Qs s hs).drift node
      refine ⟨l' - h', D.hl.sub D.hh, ?_⟩
      have a1 := abs_le.mp D.bl
      have a2 := abs_le.mp D.vn
      rw [abs_le]
      constructor <;> norm_num at a1 a2 n1 n2 ⊢ <;> linarith only [a1, a2, n1, n2, hN])
    rw [L0, Ω0] at this
    change |q.L node t - q.Ω node t - _| ≤ _
    rw [show q.L node t - q.Ω node t - (q.anom + q.argp + N * t) = q.L node t - q.Ω node t - (q.anom + q.argp + node - node) - N * t by ring, ← mul_assoc]
    exact this
  · have h1 : |q.e * q.ω t - q.e * q.argp| ≤ 0.00084 * (N * |t|) := by
      have := increment_from_zero (f := fun s => q.e * q.ω s) (t := t) (C := 0.00084 * N) (k := 0) (fun s hs => by
        obtain ⟨_, w', _, _, _, D⟩ := (Qs s hs).drift node
        refine ⟨q.e * w', D.hw.const_mul _, ?_⟩
        rw [sub_zero]
        refine D.bew.trans ?_
        norm_num at n2 ⊢; linarith only [n2, hN])
      rw [w0, zero_mul, sub_zero] at this
      rw [← mul_assoc]; exact this
    have hs := (Q.shape node).1
    have e : ((q.mean node t).e : ℂ) * dir (q.mean node t).ω - (q.e : ℂ) * dir q.argp =
        (((q.mean node t).e - q.e : ℝ) : ℂ) * dir (q.mean node t).ω + (q.e : ℂ) * (dir (q.mean node t).ω - dir q.argp) := by push_cast; ring
    rw [e]
    refine (norm_add_le _ _).trans (add_le_add ?_ ?_)
    · rw [norm_mul, dir_norm, mul_one, Complex.norm_real, Real.norm_eq_abs]; exact hs
    · rw [norm_mul, Complex.norm_real, Real.norm_eq_abs, abs_of_nonneg e0]
      refine (mul_le_mul_of_nonneg_left (dir_sub_le _ _) e0).trans ?_
      change q.e * |q.ω t - q.argp| ≤ _
      rw [← mul_sub, abs_mul, abs_of_nonneg e0] at h1
      exact h1
  · have := increment_from_zero (f := q.Ω node) (t := t) (C := 0.00167 * N) (k := 0) (fun s hs => by
      obtain ⟨_, _, h', _, _, D⟩ := (Qs s hs).drift node
      refine ⟨h', D.hh, ?_⟩
      rw [sub_zero]
      refine D.bh.trans ?_
      norm_num at n2 ⊢; linarith only [n2, hN])
    rw [Ω0, zero_mul, sub_zero] at this
    rw [← mul_assoc]; exact this

variable [Libm]

/-- **C114.** `t` minutes after (or before) the epoch, the position reported for a near-earth satellite is that of undisturbed motion on the ellipse of
the printed elements, with the printed revolutions per day, up to `0.017 + 0.051 e` of the semi-major axis and 3 per cent of the angle `φ` (in
radians) by which the mean anomaly has grown. -/
theorem C114_follow_f64 (hL : Libm.Faithful) (l1 l2 : Str) (v : Tle) (h : Printed l1 l2 v) (hpos : v.nddotNeg = false ∨ v.nddotMant = 0)
    (hnd : Normal v.nddotMant) (hb : Normal v.bstarMant) (t : F64) (ht : t.Fin) (hl : LowTle v t.val) :
    ∃ (s : Satrec F64) (p : SGP4Result F64) (A E : ℝ), twoline2satrec l1 l2 = .ok s ∧ (sgp4 s t).map Prod.snd = some (.ok p) ∧
      0 < A ∧ A ^ 3 * ((v.noE8 : ℝ) / 10 ^ 8 * (2 * Real.pi) / 86400) ^ 2 = 398600.5 ∧
      E - (v.eccE7 : ℝ) / 10 ^ 7 * Real.sin E = (v.moE4 : ℝ) / 10 ^ 4 * (Real.pi / 180) + (v.noE8 : ℝ) / 10 ^ 8 * (2 * Real.pi) / 1440 * t.val ∧
      let X := ellipsePosition A ((v.eccE7 : ℝ) / 10 ^ 7) ((v.inclE4 : ℝ) / 10 ^ 4 * (Real.pi / 180)) ((v.nodeE4 : ℝ) / 10 ^ 4 * (Real.pi / 180))
        ((v.argpE4 : ℝ) / 10 ^ 4 * (Real.pi / 180)) E
      let φ := (v.noE8 : ℝ) / 10 ^ 8 * (2 * Real.pi) / 1440 * |t.val|
      let ε := (0.017 + 0.051 * ((v.eccE7 : ℝ) / 10 ^ 7) + 0.03 * φ) * A
      |p.position.x.val - X.x| ≤ ε ∧ |p.position.y.val - X.y| ≤ ε ∧ |p.position.z.val - X.z| ≤ ε := by
  obtain ⟨s, p, hs, hp, k, -, k2, k3, c1, c2⟩ := C85_text_to_state_f64 hL l1 l2 v h hpos hnd hb t ht hl
  have Q := quiet_low hL h hpos hnd hb hl
  obtain ⟨-, hker, -⟩ := C65_kepler_converges _ (Q.fair (tleNode v)).ecc k k2 k3
  obtain ⟨n1, n2, n3⟩ := tle_motion_lower hl
  have n4 := tle_motion_upper hl
  obtain ⟨f1, f2, f3⟩ := mean_follow Q (tleNode v) n2 n1 n4
  obtain ⟨_, _, _, _, _, D⟩ := Q.drift (tleNode v)
  obtain ⟨g1, g2, g3, g4, -⟩ := quiet_numbers Q (tleNode v)
  obtain ⟨e0, e1⟩ := Q.ecc
  have FA := Q.fair (tleNode v)
  have hinc : 1 / 100 ≤ 1 + Real.cos ((tleOrbit v).mean (tleNode v) t.val).i := Q.incl
  have mi : ((tleOrbit v).mean (tleNode v) t.val).i = (v.inclE4 : ℝ) / 10 ^ 4 * (Real.pi / 180) := rfl
  set m := (tleOrbit v).mean (tleNode v) t.val with hm
  have ha1 := FA.axis
  have ha0 : 0 < m.a := lt_of_lt_of_le one_pos ha1
  have hmn : 0 < m.n := by unfold Mean.n; exact div_pos ke_pos (Real.rpow_pos_of_pos ha0 _)
  have hcube : m.a ^ 3 = (ke / m.n) ^ 2 := by
    have hr : 0 < m.a ^ (3 / 2 : ℝ) := Real.rpow_pos_of_pos ha0 _
    have e : ke / m.n = m.a ^ (3 / 2 : ℝ) := by unfold Mean.n; have := ke_pos; field_simp
    rw [e, ← Real.rpow_natCast (m.a ^ (3 / 2 : ℝ)) 2, ← Real.rpow_mul ha0.le, ← Real.rpow_natCast m.a 3]
    norm_num
  have hv := abs_le.mp D.vn
  obtain ⟨q1, q2⟩ := cube_bounds n2 hmn hcube (by norm_num at hv n1 n4 ⊢; linarith only [hv, n1, n4]) (by norm_num at hv n1 n4 ⊢; linarith only [hv, n1, n4])
  obtain ⟨A, hA, hA3⟩ := exists_axis n2
  obtain ⟨b1, b2⟩ := third_law ha0 n2 hA hA3 q1 q2
  obtain ⟨E, hE⟩ : ∃ E, E - (tleOrbit v).e * Real.sin E = (tleOrbit v).anom + tleMotion v * t.val := by
    obtain ⟨E, hE⟩ := exists_root { a := 1, e := (tleOrbit v).e, ω := 0, Ω := 0, L := (tleOrbit v).anom + tleMotion v * t.val, i := 0 }
    refine ⟨E, ?_⟩
    unfold Mean.kepler Mean.U Mean.ayN Mean.axN longAy longL at hE
    simp only [Real.sin_zero, Real.cos_zero, mul_zero, zero_div, zero_mul, add_zero, sub_zero, mul_one] at hE
    linarith only [hE]
  have hpl := plane_follow FA g1 g2 g3 g4 hinc e0 e1 hA b1 b2 (F := E) (ω := (tleOrbit v).argp) (by rw [hE]; ring) hker f1 f2
  have hik := ik_near FA (m.newton k)
  have hΩk := (abs_sub_le _ _ _).trans (add_le_add (Ωk_near FA (m.newton k)) f3)
  rw [mi] at hik
  rw [place_position] at c1
  have hcl := place_close (Z := ((m.rk (m.newton k) * kmPerRadius : ℝ) : ℂ) * dir (m.uk (m.newton k)))
    (W := (A : ℂ) * ellipse (((tleOrbit v).e : ℂ) * dir (tleOrbit v).argp) (E + (tleOrbit v).argp)) hΩk hik
  rw [← place_ellipse ⟨e0, lt_of_le_of_lt e1 (by norm_num)⟩] at hcl
  obtain ⟨-, hn⟩ := ellipse_classical ⟨e0, lt_of_le_of_lt e1 (by norm_num)⟩ (tleOrbit v).argp E
  have hW : ‖(A : ℂ) * ellipse (((tleOrbit v).e : ℂ) * dir (tleOrbit v).argp) (E + (tleOrbit v).argp)‖ ≤ A * (1 + (tleOrbit v).e) := by
    rw [norm_mul, Complex.norm_real, Real.norm_eq_abs, abs_of_pos hA]
    exact mul_le_mul_of_nonneg_left hn hA.le
  have hAlo : 6000 ≤ A := by norm_num at b2; linarith only [b2, ha1]
  have hφ0 : 0 ≤ tleMotion v * |t.val| := by positivity
  have eφ : (v.noE8 : ℝ) / 10 ^ 8 * (2 * Real.pi) / 1440 * |t.val| = tleMotion v * |t.val| := by unfold tleMotion; ring
  have fin : ∀ {x y u : ℝ}, |x - y| ≤ 1 / 10 ^ 3 →
      |y - u| ≤ ‖((m.rk (m.newton k) * kmPerRadius : ℝ) : ℂ) * dir (m.uk (m.newton k)) -
        (A : ℂ) * ellipse (((tleOrbit v).e : ℂ) * dir (tleOrbit v).argp) (E + (tleOrbit v).argp)‖ +
        ‖(A : ℂ) * ellipse (((tleOrbit v).e : ℂ) * dir (tleOrbit v).argp) (E + (tleOrbit v).argp)‖ *
          (2 * (0.00082 + 0.00167 * (tleMotion v * |t.val|)) + 0.00041) →
      |x - u| ≤ (0.017 + 0.051 * (tleOrbit v).e + 0.03 * ((v.noE8 : ℝ) / 10 ^ 8 * (2 * Real.pi) / 1440 * |t.val|)) * A := by
    intro x y u g1 g2
    rw [eφ]
    have g3 := (abs_sub_le x y u).trans (add_le_add g1 g2)
    generalize tleMotion v * |t.val| = φ at g3 hφ0 hpl ⊢
    refine g3.trans ((add_le_add le_rfl (add_le_add hpl (mul_le_mul_of_nonneg_right hW (by positivity)))).trans ?_)
    have s3 : 0 ≤ A * (tleOrbit v).e := mul_nonneg hA.le e0
    have s4 : 0 ≤ A * φ := mul_nonneg hA.le hφ0
    have s5 : A * φ * (tleOrbit v).e ≤ A * φ * 0.43 := mul_le_mul_of_nonneg_left e1 s4
    norm_num at s5 ⊢
    nlinarith only [s3, s4, s5, hAlo]
  refine ⟨s, p, A, E, hs, hp, hA, ?_, ?_, fin c1.1.2 hcl.1, fin c1.2.1.2 hcl.2.1, fin c1.2.2.2 hcl.2.2⟩
  · rw [← hA3]; unfold tleMotion; ring
  · refine hE.trans ?_
    change (v.moE4 : ℝ) / 10 ^ 4 * (Real.pi / 180) + _ = _
    unfold tleMotion; ring

/-- The International Space Station: during the first quarter of an hour each coordinate is within 330 km of that of undisturbed motion on the ellipse
with the printed elements.  (In that time the satellite covers 6900 km.) -/
theorem iss_follow (hL : Libm.Faithful) (t : F64) (ht : t.Fin) (h : |t.val| ≤ 15) :
    ∃ (s : Satrec F64) (p : SGP4Result F64) (A E : ℝ),
      twoline2satrec "1 25544U 98067A   08264.51782528 -.00002182  00000-0 -11606-4 0  2927".toList
        "2 25544  51.6416 247.4627 0006703 130.5360 325.0288 15.72125391563537".toList = .ok s ∧ (sgp4 s t).map Prod.snd = some (.ok p) ∧
      6700 ≤ A ∧ A ≤ 6750 ∧
      E - ((6703 : ℕ) : ℝ) / 10 ^ 7 * Real.sin E = ((3250288 : ℕ) : ℝ) / 10 ^ 4 * (Real.pi / 180) + ((1572125391 : ℕ) : ℝ) / 10 ^ 8 * (2 * Real.pi) / 1440 * t.val ∧
      let X := ellipsePosition A (((6703 : ℕ) : ℝ) / 10 ^ 7) (((516416 : ℕ) : ℝ) / 10 ^ 4 * (Real.pi / 180)) (((2474627 : ℕ) : ℝ) / 10 ^ 4 * (Real.pi / 180))
        (((1305360 : ℕ) : ℝ) / 10 ^ 4 * (Real.pi / 180)) E
      |p.position.x.val - X.x| ≤ 330 ∧ |p.position.y.val - X.y| ≤ 330 ∧ |p.position.z.val - X.z| ≤ 330 := by
  obtain ⟨s, p, A, E, h1, h2, h3, h4, h5, x1, x2, x3⟩ := C114_follow_f64 hL _ _ _ iss_printed (Or.inl rfl) (Or.inl rfl) (Or.inr (by decide)) t ht
    (iss_low (h.trans (by norm_num)))
  obtain ⟨a1, a2⟩ := iss_axis h3 h4
  have hp := Real.pi_lt_d4
  have hp0 := Real.pi_pos
  have hε : (0.017 + 0.051 * (((6703 : ℕ) : ℝ) / 10 ^ 7) + 0.03 * (((1572125391 : ℕ) : ℝ) / 10 ^ 8 * (2 * Real.pi) / 1440 * |t.val|)) * A ≤ 330 := by
    calc _ ≤ (0.017 + 0.051 * (((6703 : ℕ) : ℝ) / 10 ^ 7) + 0.03 * (((1572125391 : ℕ) : ℝ) / 10 ^ 8 * (2 * 3.1416) / 1440 * 15)) * 6750 := by gcongr
      _ ≤ _ := by norm_num
  exact ⟨s, p, A, E, h1, h2, a1, a2, h5, x1.trans hε, x2.trans hε, x3.trans hε⟩

end Sat
